import Verif.Spec.CLang

/-!
The code of the templates for the C language, as trees: `src/templates/c.c` and
`src/templates/common.c`, with the conditionals of the preprocessor as conditionals on
which macros are defined.  That these trees are the text of the templates is proved in
`Verif/Lemmas/CProgText.lean`; nothing here needs to be trusted.
-/

set_option maxRecDepth 10000
set_option linter.unusedVariables false

namespace Gdo.Cc
open Gdo Tmpl

/-- A name without keyword. -/
scoped macro "n! " s:str : term => `(Name.fixed (str% $s))
/-- Tokens. -/
scoped macro "w! " s:str : term => `(STok.word (Name.fixed (str% $s)))
scoped macro "p! " s:str : term => `(STok.punct (str% $s))
/-- Expressions. -/
scoped macro "id! " s:str : term => `(Expr.id (Name.fixed (str% $s)))
scoped macro "lit! " s:str : term => `(Expr.str (Name.fixed (str% $s)))
scoped macro "ch! " s:str : term => `(Expr.chr (Name.fixed (str% $s)))

namespace C

/-- `_gdo_call_dlsym`.  C: common.c 3-10. -/
def fn_gdo_call_dlsym (GDO_WINAPI : Bool) : Top := .fn {
  head := [w! "GDO_INLINE", w! "void", p! "*"]
  name := str% "_gdo_call_dlsym"
  params := [([w! "gdo_hmod_t"], str% "handle"), ([w! "const", w! "char", p! "*"], str% "symbol")]
  body := 
    (if GDO_WINAPI then [.ret (some (.cast [w! "void", p! "*"] (.call (n! "GetProcAddress") [(id! "handle"), (id! "symbol")])))] else [.ret (some (.call (n! "dlsym") [(id! "handle"), (id! "symbol")]))]) }

/-- `_gdo_call_dlclose`.  C: common.c 13-20. -/
def fn_gdo_call_dlclose (GDO_WINAPI : Bool) : Top := .fn {
  head := [w! "GDO_INLINE", w! "bool"]
  name := str% "_gdo_call_dlclose"
  params := [([w! "gdo_hmod_t"], str% "handle")]
  body := 
    (if GDO_WINAPI then [.ret (some (.paren (.bin (str% "==") (.call (n! "FreeLibrary") [(id! "handle")]) (id! "TRUE"))))] else [.ret (some (.paren (.bin (str% "==") (.call (n! "dlclose") [(id! "handle")]) (id! "0"))))]) }

/-- `_gdo_call_dlopen`.  C: common.c 25-36. -/
def fn_gdo_call_dlopen (GDO_HAVE_DLMOPEN : Bool) : Top := .fn {
  head := [w! "GDO_INLINE", w! "gdo_hmod_t"]
  name := str% "_gdo_call_dlopen"
  params := [([w! "const", w! "char", p! "*"], str% "filename"), ([w! "int"], str% "flags"), ([w! "bool"], str% "new_namespace")]
  body := 
    (if GDO_HAVE_DLMOPEN then [.if1 (id! "new_namespace") [.ret (some (.call (n! "dlmopen") [(id! "LM_ID_NEWLM"), (id! "filename"), (id! "flags")]))]] else [.expr (.cast [w! "void"] (id! "new_namespace"))]) ++
    [.ret (some (.call (n! "dlopen") [(id! "filename"), (id! "flags")]))] }

/-- `_gdo_call_dladdr`.  C: common.c 40-45. -/
def fn_gdo_call_dladdr : Top := .fn {
  head := [w! "GDO_INLINE", w! "bool"]
  name := str% "_gdo_call_dladdr"
  params := [([w! "const", w! "void", p! "*"], str% "addr"), ([w! "Dl_info", p! "*"], str% "info")]
  body := 
    [.expr (.assign (.arrow (id! "info") (str% "dli_fname")) (id! "NULL")),
     .ret (some (.paren (.bin (str% "&&") (.bin (str% "&&") (.bin (str% "&&") (id! "addr") (.bin (str% "!=") (.call (n! "dladdr") [(id! "addr"), (id! "info")]) (id! "0"))) (.arrow (id! "info") (str% "dli_fname"))) (.bin (str% "!=") (.index (.arrow (id! "info") (str% "dli_fname")) (id! "0")) (id! "0")))))] }

/-- `_gdo_aix_parse_ldinfo`.  C: common.c 59-92. -/
def fn_gdo_aix_parse_ldinfo : Top := .fn {
  head := [w! "GDO_INLINE", w! "const", w! "char", p! "*"]
  name := str% "_gdo_aix_parse_ldinfo"
  params := [([w! "struct", w! "ld_info", p! "*"], str% "info"), ([w! "uint8_t", p! "*"], str% "sym"), ([w! "const", w! "char", p! "*", p! "*"], str% "member")]
  body := 
    [.decl [w! "struct", w! "ld_info", p! "*"] (str% "cur") [] (some (id! "info")) [],
     .while (id! "true") [.decl [w! "uint8_t", p! "*"] (str% "text") [] (some (.cast [w! "uint8_t", p! "*"] (.arrow (id! "cur") (str% "ldinfo_textorg")))) [], .decl [w! "uint8_t", p! "*"] (str% "data") [] (some (.cast [w! "uint8_t", p! "*"] (.arrow (id! "cur") (str% "ldinfo_dataorg")))) [], .decl [w! "uint8_t", p! "*"] (str% "text_end") [] (some (.bin (str% "+") (id! "text") (.arrow (id! "cur") (str% "ldinfo_textsize")))) [], .decl [w! "uint8_t", p! "*"] (str% "data_end") [] (some (.bin (str% "+") (id! "data") (.arrow (id! "cur") (str% "ldinfo_datasize")))) [], .elif (.bin (str% "||") (.paren (.bin (str% "&&") (.bin (str% ">=") (id! "sym") (id! "text")) (.bin (str% "<") (id! "sym") (id! "text_end")))) (.paren (.bin (str% "&&") (.bin (str% ">=") (id! "sym") (id! "data")) (.bin (str% "<") (id! "sym") (id! "data_end"))))) [.brk] [.if2 (.bin (str% "==") (.arrow (id! "cur") (str% "ldinfo_next")) (id! "0")) [.ret (some (id! "NULL"))] [.expr (.assign (id! "cur") (.cast [w! "struct", w! "ld_info", p! "*"] (.paren (.bin (str% "+") (.cast [w! "uint8_t", p! "*"] (id! "cur")) (.arrow (id! "cur") (str% "ldinfo_next"))))))]]],
     .decl [w! "const", w! "char", p! "*"] (str% "path") [] (some (.arrow (id! "cur") (str% "ldinfo_filename"))) [],
     .if1 (.bin (str% "||") (.un (str% "!") (id! "path")) (.bin (str% "==") (.index (id! "path") (id! "0")) (id! "0"))) [.ret (some (id! "NULL"))],
     .expr (.assign (.un (str% "*") (id! "member")) (.bin (str% "+") (.bin (str% "+") (id! "path") (.call (n! "strlen") [(id! "path")])) (id! "1"))),
     .ret (some (id! "path"))] }

/-- `_gdo_fullpath_procmap`.  C: common.c 113-183. -/
def fn_gdo_fullpath_procmap (PROCMAP_QUERY : Bool) : Top := .fn {
  head := [w! "GDO_INLINE", w! "bool"]
  name := str% "_gdo_fullpath_procmap"
  params := [([w! "struct", w! "link_map", p! "*"], str% "lm"), ([w! "char", p! "*"], str% "buf"), ([w! "size_t"], str% "bufsize")]
  body := 
    (if PROCMAP_QUERY then [.decl [w! "struct", w! "procmap_query"] (str% "q") [] none [], .decl [w! "int"] (str% "fd") [] (some (.call (n! "open") [(lit! "/proc/self/maps"), (.bin (str% "|") (id! "O_RDONLY") (id! "O_NONBLOCK"))])) [], .if1 (.bin (str% "!=") (id! "fd") (.un (str% "-") (id! "1"))) [.expr (.call (n! "memset") [(.un (str% "&") (id! "q")), (id! "0"), (.sizeofType [w! "struct", w! "procmap_query"])]), .expr (.assign (.field (id! "q") (str% "size")) (.sizeofType [w! "struct", w! "procmap_query"])), .expr (.assign (.field (id! "q") (str% "query_flags")) (id! "PROCMAP_QUERY_FILE_BACKED_VMA")), .expr (.assign (.field (id! "q") (str% "query_addr")) (.cast [w! "__u64"] (.arrow (id! "lm") (str% "l_addr")))), .expr (.assign (.field (id! "q") (str% "vma_name_size")) (id! "bufsize")), .expr (.assign (.field (id! "q") (str% "vma_name_addr")) (.cast [w! "__u64"] (id! "buf"))), .if1 (.bin (str% "&&") (.bin (str% "==") (.call (n! "ioctl") [(id! "fd"), (id! "PROCMAP_QUERY"), (.un (str% "&") (id! "q"))]) (id! "0")) (.bin (str% ">") (.field (id! "q") (str% "vma_name_size")) (id! "0"))) [.expr (.call (n! "close") [(id! "fd")]), .ret (some (id! "true"))], .expr (.call (n! "close") [(id! "fd")])], .expr (.assign (.index (id! "buf") (id! "0")) (id! "0"))] else []) ++
    [.decl [w! "FILE", p! "*"] (str% "fp") [] (some (.call (n! "fopen") [(lit! "/proc/self/maps"), (lit! "r")])) [],
     .if1 (.un (str% "!") (id! "fp")) [.ret (some (id! "false"))],
     .decl [w! "uintmax_t"] (str% "start") [] none [p! ",", w! "end"],
     .decl [w! "char"] (str% "mode") [p! "[", w! "5", p! "]"] none [],
     .decl [w! "char", p! "*"] (str% "line") [] (some (id! "NULL")) [p! ",", p! "*", w! "path", p! "=", w! "NULL"],
     .decl [w! "size_t"] (str% "n") [] (some (id! "0")) [],
     .while (.bin (str% "!=") (.call (n! "getline") [(.un (str% "&") (id! "line")), (.un (str% "&") (id! "n")), (id! "fp")]) (.un (str% "-") (id! "1"))) [.decl [w! "int"] (str% "rv") [] (some (.call (n! "sscanf") [(id! "line"), (lit! "%jx-%jx %4[rwxsp-] %*u %*u:%*u %*u %m[^\\n]"), (.un (str% "&") (id! "start")), (.un (str% "&") (id! "end")), (id! "mode"), (.un (str% "&") (id! "path"))])) [], .if1 (.bin (str% "&&") (.bin (str% "&&") (.bin (str% "==") (id! "rv") (id! "4")) (.bin (str% ">=") (.arrow (id! "lm") (str% "l_addr")) (id! "start"))) (.bin (str% "<") (.arrow (id! "lm") (str% "l_addr")) (id! "end"))) [.brk], .expr (.call (n! "free") [(id! "path")]), .expr (.assign (id! "path") (id! "NULL"))],
     .expr (.call (n! "free") [(id! "line")]),
     .expr (.call (n! "fclose") [(id! "fp")]),
     .if1 (.bin (str% "&&") (id! "path") (.bin (str% "<") (.paren (.assign (id! "n") (.call (n! "strlen") [(id! "path")]))) (id! "bufsize"))) [.expr (.call (n! "memcpy") [(id! "buf"), (id! "path"), (.bin (str% "+") (id! "n") (id! "1"))]), .expr (.call (n! "free") [(id! "path")]), .ret (some (id! "true"))],
     .expr (.call (n! "free") [(id! "path")]),
     .ret (some (id! "false"))] }

/-- `_gdo_tcsstr`.  C: c.c 62-69. -/
def fn_gdo_tcsstr (_WIN32 : Bool) : Top := .fn {
  head := [w! "GDO_INLINE", w! "const", w! "gdo_char_t", p! "*"]
  name := str% "_gdo_tcsstr"
  params := [([w! "const", w! "gdo_char_t", p! "*"], str% "haystack"), ([w! "const", w! "gdo_char_t", p! "*"], str% "needle")]
  body := 
    (if _WIN32 then [.ret (some (.call (n! "_tcsstr") [(id! "haystack"), (id! "needle")]))] else [.ret (some (.call (n! "strstr") [(id! "haystack"), (id! "needle")]))]) }

/-- `_gdo_save_to_errbuf`.  C: c.c 93-104. -/
def fn_gdo_save_to_errbuf (GDO_WINAPI : Bool) : Top := .fn {
  head := [w! "GDO_INLINE", w! "void"]
  name := str% "_gdo_save_to_errbuf"
  params := [([w! "const", w! "gdo_char_t", p! "*"], str% "msg")]
  body := 
    [.if2 (id! "msg") [.expr (.call (n! "GDO_SNPRINTF") [(.field (id! "gdo_hndl") (str% "errbuf")), (.call (n! "_T") [(lit! "%s")]), (id! "msg")])] [.expr (.assign (.index (.field (id! "gdo_hndl") (str% "errbuf")) (id! "0")) (id! "0"))]] ++
    (if GDO_WINAPI then [.expr (.assign (.index (.field (id! "gdo_hndl") (str% "formatted")) (id! "0")) (id! "0"))] else []) }

/-- `_gdo_clear_error`.  C: c.c 109-114. -/
def fn_gdo_clear_error : Top := .fn {
  head := [w! "GDO_INLINE", w! "void"]
  name := str% "_gdo_clear_error"
  params := []
  body := 
    [.expr (.assign (.index (.field (id! "gdo_hndl") (str% "errbuf")) (id! "0")) (id! "0")),
     .expr (.assign (.index (.field (id! "gdo_hndl") (str% "formatted")) (id! "0")) (id! "0")),
     .expr (.assign (.field (id! "gdo_hndl") (str% "last_errno")) (id! "0"))] }

/-- `_gdo_save_error`.  C: c.c 118-122. -/
def fn_gdo_save_error : Top := .fn {
  head := [w! "GDO_INLINE", w! "void"]
  name := str% "_gdo_save_error"
  params := [([w! "const", w! "gdo_char_t", p! "*"], str% "msg")]
  body := 
    [.expr (.assign (.field (id! "gdo_hndl") (str% "last_errno")) (.call (n! "GetLastError") [])),
     .expr (.call (n! "_gdo_save_to_errbuf") [(id! "msg")])] }

/-- `_gdo_set_error_no_library_loaded`.  C: c.c 125-129. -/
def fn_gdo_set_error_no_library_loaded : Top := .fn {
  head := [w! "GDO_INLINE", w! "void"]
  name := str% "_gdo_set_error_no_library_loaded"
  params := []
  body := 
    [.expr (.assign (.field (id! "gdo_hndl") (str% "last_errno")) (id! "ERROR_INVALID_HANDLE")),
     .expr (.call (n! "_gdo_save_to_errbuf") [(.call (n! "_T") [(lit! "no library was loaded")])])] }

/-- `_gdo_clear_error`.  C: c.c 135-139. -/
def fn_gdo_clear_error2 : Top := .fn {
  head := [w! "GDO_INLINE", w! "void"]
  name := str% "_gdo_clear_error"
  params := []
  body := 
    [.expr (.call (n! "dlerror") []),
     .expr (.assign (.index (.field (id! "gdo_hndl") (str% "errbuf")) (id! "0")) (id! "0"))] }

/-- `_gdo_save_error`.  C: c.c 142-146. -/
def fn_gdo_save_error2 : Top := .fn {
  head := [w! "GDO_INLINE", w! "void"]
  name := str% "_gdo_save_error"
  params := [([w! "const", w! "gdo_char_t", p! "*"], str% "msg")]
  body := 
    [.expr (.call (n! "GDO_UNUSED_REF") [(id! "msg")]),
     .expr (.call (n! "_gdo_save_to_errbuf") [(.call (n! "dlerror") [])])] }

/-- `_gdo_set_error_no_library_loaded`.  C: c.c 149-152. -/
def fn_gdo_set_error_no_library_loaded2 : Top := .fn {
  head := [w! "GDO_INLINE", w! "void"]
  name := str% "_gdo_set_error_no_library_loaded"
  params := []
  body := 
    [.expr (.call (n! "_gdo_save_to_errbuf") [(lit! "no library was loaded")])] }

/-- `gdo_load_lib`.  C: c.c 163-166. -/
def gdo_load_lib : Top := .fn {
  head := [w! "GDO_LINKAGE", w! "bool"]
  name := str% "gdo_load_lib"
  params := []
  body := 
    [.ret (some (.call (n! "gdo_load_lib_name") [(id! "GDO_DEFAULT_LIB")]))] }

/-- `gdo_load_lib_and_symbols`.  C: c.c 176-179. -/
def gdo_load_lib_and_symbols : Top := .fn {
  head := [w! "GDO_LINKAGE", w! "bool"]
  name := str% "gdo_load_lib_and_symbols"
  params := []
  body := 
    [.ret (some (.paren (.bin (str% "&&") (.call (n! "gdo_load_lib") []) (.call (n! "gdo_load_all_symbols") []))))] }

/-- `gdo_load_lib_name`.  C: c.c 188-191. -/
def gdo_load_lib_name : Top := .fn {
  head := [w! "GDO_LINKAGE", w! "bool"]
  name := str% "gdo_load_lib_name"
  params := [([w! "const", w! "gdo_char_t", p! "*"], str% "filename")]
  body := 
    [.ret (some (.call (n! "gdo_load_lib_args") [(id! "filename"), (id! "GDO_DEFAULT_FLAGS"), (id! "false")]))] }

/-- `gdo_load_lib_name_and_symbols`.  C: c.c 199-202. -/
def gdo_load_lib_name_and_symbols : Top := .fn {
  head := [w! "GDO_LINKAGE", w! "bool"]
  name := str% "gdo_load_lib_name_and_symbols"
  params := [([w! "const", w! "gdo_char_t", p! "*"], str% "filename")]
  body := 
    [.ret (some (.paren (.bin (str% "&&") (.call (n! "gdo_load_lib_name") [(id! "filename")]) (.call (n! "gdo_load_all_symbols") []))))] }

/-- `gdo_load_lib_args`.  C: c.c 210-236. -/
def gdo_load_lib_args : Top := .fn {
  head := [w! "GDO_LINKAGE", w! "bool"]
  name := str% "gdo_load_lib_args"
  params := [([w! "const", w! "gdo_char_t", p! "*"], str% "filename"), ([w! "int"], str% "flags"), ([w! "bool"], str% "new_namespace")]
  body := 
    [.expr (.call (n! "_gdo_clear_error") []),
     .if1 (.call (n! "gdo_lib_is_loaded") []) [.expr (.call (n! "_gdo_save_to_errbuf") [(.call (n! "_T") [(lit! "library already loaded")])]), .ret (some (id! "false"))],
     .if1 (.bin (str% "||") (.un (str% "!") (id! "filename")) (.bin (str% "==") (.un (str% "*") (id! "filename")) (id! "0"))) [.expr (.call (n! "GDO_SET_LAST_ERRNO") [(id! "ERROR_INVALID_NAME")]), .expr (.call (n! "_gdo_save_to_errbuf") [(.call (n! "_T") [(lit! "empty filename")])]), .ret (some (id! "false"))],
     .expr (.call (n! "_gdo_load_library") [(id! "filename"), (id! "flags"), (id! "new_namespace")]),
     .if1 (.un (str% "!") (.call (n! "gdo_lib_is_loaded") [])) [.expr (.call (n! "_gdo_save_error") [(id! "filename")]), .ret (some (id! "false"))],
     .ret (some (id! "true"))] }

/-- `_gdo_load_library`.  C: c.c 239-270. -/
def fn_gdo_load_library (GDO_WINAPI : Bool) : Top := .fn {
  head := [w! "GDO_INLINE", w! "void"]
  name := str% "_gdo_load_library"
  params := [([w! "const", w! "gdo_char_t", p! "*"], str% "filename"), ([w! "int"], str% "flags"), ([w! "bool"], str% "new_namespace")]
  body := 
    (if GDO_WINAPI then [.if1 (.un (str% "!") (.call (n! "_tcschr") [(id! "filename"), (.call (n! "_T") [(ch! "/")])])) [.expr (.assign (.field (id! "gdo_hndl") (str% "handle")) (.call (n! "_gdo_load_library_ex") [(id! "filename"), (id! "flags")])), .ret none], .decl [w! "gdo_char_t", p! "*"] (str% "copy") [] (some (.call (n! "_tcsdup") [(id! "filename")])) [], .for [w! "gdo_char_t", p! "*"] (str% "p") (id! "copy") (.bin (str% "!=") (.un (str% "*") (id! "p")) (id! "0")) (.inc (id! "p")) [.if1 (.bin (str% "==") (.un (str% "*") (id! "p")) (.call (n! "_T") [(ch! "/")])) [.expr (.assign (.un (str% "*") (id! "p")) (.call (n! "_T") [(ch! "\\\\")]))]], .expr (.call (n! "GDO_UNUSED_REF") [(id! "new_namespace")]), .expr (.assign (.field (id! "gdo_hndl") (str% "handle")) (.call (n! "_gdo_load_library_ex") [(id! "copy"), (id! "flags")])), .expr (.call (n! "free") [(id! "copy")])] else [.expr (.assign (.field (id! "gdo_hndl") (str% "handle")) (.call (n! "_gdo_call_dlopen") [(id! "filename"), (id! "flags"), (id! "new_namespace")]))]) }

/-- `_gdo_mbstowcs`.  C: c.c 274-293. -/
def fn_gdo_mbstowcs : Top := .fn {
  head := [w! "GDO_INLINE", w! "wchar_t", p! "*"]
  name := str% "_gdo_mbstowcs"
  params := [([w! "const", w! "char", p! "*"], str% "filename")]
  body := 
    [.decl [w! "wchar_t", p! "*"] (str% "wcs") [] none [],
     .decl [w! "size_t"] (str% "len") [] (some (id! "0")) [],
     .decl [w! "size_t"] (str% "n") [] (some (id! "0")) [],
     .if1 (.bin (str% "&&") (.bin (str% "==") (.call (n! "mbstowcs_s") [(.un (str% "&") (id! "len")), (id! "NULL"), (id! "0"), (id! "filename"), (id! "_TRUNCATE")]) (id! "0")) (.bin (str% ">") (id! "len") (id! "1"))) [.expr (.assign (id! "wcs") (.cast [w! "wchar_t", p! "*"] (.call (n! "malloc") [(.bin (str% "*") (id! "len") (.sizeofType [w! "wchar_t"]))]))), .if1 (.bin (str% "&&") (.bin (str% "==") (.call (n! "mbstowcs_s") [(.un (str% "&") (id! "n")), (id! "wcs"), (id! "len"), (id! "filename"), (id! "_TRUNCATE")]) (id! "0")) (.bin (str% "==") (id! "n") (id! "len"))) [.ret (some (id! "wcs"))], .expr (.call (n! "free") [(id! "wcs")])],
     .ret (some (id! "NULL"))] }

/-- `_gdo_load_library_ex`.  C: c.c 296-314. -/
def fn_gdo_load_library_ex (GDO_CONVERT_FILENAME : Bool) (_GDO_TARGET_WIDECHAR : Bool) : Top := .fn {
  head := [w! "GDO_INLINE", w! "HMODULE"]
  name := str% "_gdo_load_library_ex"
  params := [([w! "const", w! "gdo_char_t", p! "*"], str% "filename"), ([w! "int"], str% "flags")]
  body := 
    (if !_GDO_TARGET_WIDECHAR && GDO_CONVERT_FILENAME then [.decl [w! "wchar_t", p! "*"] (str% "wcs") [] (some (.call (n! "_gdo_mbstowcs") [(id! "filename")])) [], .if1 (id! "wcs") [.decl [w! "HMODULE"] (str% "handle") [] (some (.call (n! "LoadLibraryExW") [(id! "wcs"), (id! "NULL"), (id! "flags")])) [], .expr (.call (n! "free") [(id! "wcs")]), .ret (some (id! "handle"))], .expr (.call (n! "GDO_SET_LAST_ERRNO") [(id! "ERROR_INVALID_NAME")]), .expr (.call (n! "_gdo_save_to_errbuf") [(lit! "mbstowcs_s: failed to convert filename")]), .ret (some (id! "NULL"))] else [.ret (some (.call (n! "LoadLibraryEx") [(id! "filename"), (id! "NULL"), (id! "flags")]))]) }

/-- `gdo_lib_is_loaded`.  C: c.c 323-326. -/
def gdo_lib_is_loaded : Top := .fn {
  head := [w! "GDO_LINKAGE", w! "bool"]
  name := str% "gdo_lib_is_loaded"
  params := []
  body := 
    [.ret (some (.paren (.bin (str% "!=") (.field (id! "gdo_hndl") (str% "handle")) (id! "NULL"))))] }

/-- `gdo_free_lib`.  C: c.c 334-357. -/
def gdo_free_lib (GDO_WINAPI : Bool) : Top := .fn {
  head := [w! "GDO_LINKAGE", w! "bool"]
  name := str% "gdo_free_lib"
  params := []
  body := 
    [.expr (.call (n! "_gdo_clear_error") []),
     .if1 (.call (n! "gdo_lib_is_loaded") []) [.if1 (.un (str% "!") (.call (n! "_gdo_call_dlclose") [(.field (id! "gdo_hndl") (str% "handle"))])) ((if GDO_WINAPI then [.expr (.call (n! "_gdo_save_error") [(.call (n! "_T") [(lit! "FreeLibrary()")])])] else [.expr (.call (n! "_gdo_save_error") [(id! "NULL")])]) ++ [.ret (some (id! "false"))])],
     .expr (.assign (.index (.field (id! "gdo_hndl") (str% "libpath")) (id! "0")) (id! "0")),
     .expr (.assign (.field (id! "gdo_hndl") (str% "handle")) (id! "NULL")),
     .rep .symbol [.expr (.assign (.id (.hole (str% "GDO_RAWPTR_") (str% "symbol"))) (id! "NULL"))],
     .ret (some (id! "true"))] }

/-- `gdo_force_free_lib`.  C: c.c 365-378. -/
def gdo_force_free_lib : Top := .fn {
  head := [w! "GDO_LINKAGE", w! "void"]
  name := str% "gdo_force_free_lib"
  params := []
  body := 
    [.expr (.call (n! "_gdo_clear_error") []),
     .if1 (.call (n! "gdo_lib_is_loaded") []) [.expr (.call (n! "_gdo_call_dlclose") [(.field (id! "gdo_hndl") (str% "handle"))])],
     .expr (.assign (.index (.field (id! "gdo_hndl") (str% "libpath")) (id! "0")) (id! "0")),
     .expr (.assign (.field (id! "gdo_hndl") (str% "handle")) (id! "NULL")),
     .rep .symbol [.expr (.assign (.id (.hole (str% "GDO_RAWPTR_") (str% "symbol"))) (id! "NULL"))]] }

/-- `gdo_enable_autorelease`.  C: c.c 386-399. -/
def gdo_enable_autorelease : Top := .fn {
  head := [w! "GDO_LINKAGE", w! "bool"]
  name := str% "gdo_enable_autorelease"
  params := []
  body := 
    [.expr (.call (n! "_gdo_clear_error") []),
     .if1 (.un (str% "!") (.field (id! "gdo_hndl") (str% "free_lib_reg"))) [.if2 (.bin (str% "==") (.call (n! "atexit") [(id! "gdo_force_free_lib")]) (id! "0")) [.expr (.assign (.field (id! "gdo_hndl") (str% "free_lib_reg")) (id! "true"))] [.expr (.call (n! "_gdo_save_to_errbuf") [(.call (n! "_T") [(lit! "atexit(): failed to register `gdo_force_free_lib()'")])])]],
     .ret (some (.field (id! "gdo_hndl") (str% "free_lib_reg")))] }

/-- `gdo_all_symbols_loaded`.  C: c.c 407-416. -/
def gdo_all_symbols_loaded : Top := .fn {
  head := [w! "GDO_LINKAGE", w! "bool"]
  name := str% "gdo_all_symbols_loaded"
  params := []
  body := 
    [.if1 (.rep .symbol (str% "&&") (id! "true") (.bin (str% "!=") (.id (.hole (str% "GDO_RAWPTR_") (str% "symbol"))) (id! "NULL"))) [.ret (some (id! "true"))],
     .ret (some (id! "false"))] }

/-- `gdo_no_symbols_loaded`.  C: c.c 424-433. -/
def gdo_no_symbols_loaded : Top := .fn {
  head := [w! "GDO_LINKAGE", w! "bool"]
  name := str% "gdo_no_symbols_loaded"
  params := []
  body := 
    [.if1 (.rep .symbol (str% "&&") (id! "true") (.bin (str% "==") (.id (.hole (str% "GDO_RAWPTR_") (str% "symbol"))) (id! "NULL"))) [.ret (some (id! "true"))],
     .ret (some (id! "false"))] }

/-- `gdo_any_symbol_loaded`.  C: c.c 441-450. -/
def gdo_any_symbol_loaded : Top := .fn {
  head := [w! "GDO_LINKAGE", w! "bool"]
  name := str% "gdo_any_symbol_loaded"
  params := []
  body := 
    [.if1 (.rep .symbol (str% "||") (id! "false") (.bin (str% "!=") (.id (.hole (str% "GDO_RAWPTR_") (str% "symbol"))) (id! "NULL"))) [.ret (some (id! "true"))],
     .ret (some (id! "false"))] }

/-- `gdo_load_all_symbols`.  C: c.c 458-481. -/
def gdo_load_all_symbols : Top := .fn {
  head := [w! "GDO_LINKAGE", w! "bool"]
  name := str% "gdo_load_all_symbols"
  params := []
  body := 
    [.expr (.call (n! "_gdo_clear_error") []),
     .if1 (.call (n! "gdo_all_symbols_loaded") []) [.ret (some (id! "true"))],
     .if1 (.un (str% "!") (.call (n! "gdo_lib_is_loaded") [])) [.expr (.call (n! "_gdo_set_error_no_library_loaded") []), .ret (some (id! "false"))],
     .rep .symbol [.if1 (.bin (str% "==") (.paren (.assign (.id (.hole (str% "GDO_RAWPTR_") (str% "symbol"))) (.cast [.text (.hole [] (str% "sym_type"))] (.call (n! "_gdo_sym") [(.str (.hole (str% "") (str% "symbol"))), (.call (n! "_T") [(.str (.hole (str% "") (str% "symbol")))])])))) (id! "NULL")) [.ret (some (id! "false"))]],
     .ret (some (id! "true"))] }

/-- `_gdo_sym`.  C: c.c 483-492. -/
def fn_gdo_sym : Top := .fn {
  head := [w! "GDO_INLINE", w! "void", p! "*"]
  name := str% "_gdo_sym"
  params := [([w! "const", w! "char", p! "*"], str% "symbol"), ([w! "const", w! "gdo_char_t", p! "*"], str% "msg")]
  body := 
    [.decl [w! "void", p! "*"] (str% "ptr") [] (some (.call (n! "_gdo_call_dlsym") [(.field (id! "gdo_hndl") (str% "handle")), (id! "symbol")])) [],
     .if1 (.un (str% "!") (id! "ptr")) [.expr (.call (n! "_gdo_save_error") [(id! "msg")])],
     .ret (some (id! "ptr"))] }

/-- `gdo_load_symbol`.  C: c.c 500-528. -/
def gdo_load_symbol : Top := .fn {
  head := [w! "GDO_LINKAGE", w! "bool"]
  name := str% "gdo_load_symbol"
  params := [([w! "int"], str% "symbol_num")]
  body := 
    [.expr (.call (n! "_gdo_clear_error") []),
     .if1 (.un (str% "!") (.call (n! "gdo_lib_is_loaded") [])) [.expr (.call (n! "_gdo_set_error_no_library_loaded") []), .ret (some (id! "false"))],
     .switch (id! "symbol_num") [.rep .symbol [.case (.id (.hole (str% "GDO_LOAD_") (str% "symbol"))), .if1 (.un (str% "!") (.id (.hole (str% "GDO_RAWPTR_") (str% "symbol")))) [.expr (.assign (.id (.hole (str% "GDO_RAWPTR_") (str% "symbol"))) (.cast [.text (.hole [] (str% "sym_type"))] (.call (n! "_gdo_sym") [(.str (.hole (str% "") (str% "symbol"))), (.call (n! "_T") [(.str (.hole (str% "") (str% "symbol")))])])))], .ret (some (.paren (.bin (str% "!=") (.id (.hole (str% "GDO_RAWPTR_") (str% "symbol"))) (id! "NULL"))))], .default, .brk],
     .expr (.call (n! "GDO_SET_LAST_ERRNO") [(id! "ERROR_NOT_FOUND")]),
     .expr (.call (n! "GDO_SNPRINTF") [(.field (id! "gdo_hndl") (str% "errbuf")), (.call (n! "_T") [(lit! "unknown symbol number: %d")]), (id! "symbol_num")]),
     .ret (some (id! "false"))] }

/-- `gdo_load_symbol_name`.  C: c.c 536-576. -/
def gdo_load_symbol_name : Top := .fn {
  head := [w! "GDO_LINKAGE", w! "bool"]
  name := str% "gdo_load_symbol_name"
  params := [([w! "const", w! "char", p! "*"], str% "symbol")]
  body := 
    [.expr (.call (n! "_gdo_clear_error") []),
     .if1 (.un (str% "!") (.call (n! "gdo_lib_is_loaded") [])) [.expr (.call (n! "_gdo_set_error_no_library_loaded") []), .ret (some (id! "false"))],
     .if1 (.bin (str% "||") (.un (str% "!") (id! "symbol")) (.bin (str% "==") (.un (str% "*") (id! "symbol")) (id! "0"))) [.expr (.call (n! "GDO_SET_LAST_ERRNO") [(id! "ERROR_INVALID_PARAMETER")]), .expr (.call (n! "_gdo_save_to_errbuf") [(.call (n! "_T") [(lit! "empty symbol name")])]), .ret (some (id! "false"))],
     .decl [w! "const", w! "char"] (str% "pfx") [p! "[", p! "]"] (some (id! "GDO_COMMON_PREFIX")) [],
     .decl [w! "const", w! "size_t"] (str% "pfxlen") [] (some (.bin (str% "-") (.sizeof (id! "pfx")) (id! "1"))) [],
     .if1 (.bin (str% "||") (.bin (str% "==") (id! "pfxlen") (id! "0")) (.bin (str% "==") (.call (n! "strncmp") [(id! "symbol"), (id! "pfx"), (id! "pfxlen")]) (id! "0"))) [.decl [w! "const", w! "size_t"] (str% "len") [] (some (.call (n! "strlen") [(id! "symbol")])) [], .decl [w! "const", w! "char", p! "*"] (str% "curr") [] none [], .decl [w! "size_t"] (str% "curr_len") [] none [], .rep .symbol [.expr (.assign (id! "curr") (.str (.hole (str% "") (str% "symbol")))), .expr (.assign (id! "curr_len") (.bin (str% "-") (.sizeof (.str (.hole (str% "") (str% "symbol")))) (id! "1"))), .if1 (.bin (str% "&&") (.bin (str% "==") (id! "len") (id! "curr_len")) (.bin (str% "==") (.call (n! "strcmp") [(.bin (str% "+") (id! "symbol") (id! "pfxlen")), (.bin (str% "+") (id! "curr") (id! "pfxlen"))]) (id! "0"))) [.if1 (.un (str% "!") (.id (.hole (str% "GDO_RAWPTR_") (str% "symbol")))) [.expr (.assign (.id (.hole (str% "GDO_RAWPTR_") (str% "symbol"))) (.cast [.text (.hole [] (str% "sym_type"))] (.call (n! "_gdo_sym") [(.str (.hole (str% "") (str% "symbol"))), (.call (n! "_T") [(.str (.hole (str% "") (str% "symbol")))])])))], .ret (some (.paren (.bin (str% "!=") (.id (.hole (str% "GDO_RAWPTR_") (str% "symbol"))) (id! "NULL"))))]]],
     .expr (.call (n! "GDO_SET_LAST_ERRNO") [(id! "ERROR_NOT_FOUND")]),
     .expr (.call (n! "GDO_SNPRINTF") [(.field (id! "gdo_hndl") (str% "errbuf")), (.cat [(.call (n! "_T") [(lit! "unknown symbol: ")]), (id! "GDO_XHS")]), (id! "symbol")]),
     .ret (some (id! "false"))] }

/-- `gdo_last_error`.  C: c.c 584-634. -/
def gdo_last_error (GDO_WINAPI : Bool) : Top := .fn {
  head := [w! "GDO_LINKAGE", w! "const", w! "gdo_char_t", p! "*"]
  name := str% "gdo_last_error"
  params := []
  body := 
    (if GDO_WINAPI then [.if1 (.bin (str% "!=") (.index (.field (id! "gdo_hndl") (str% "formatted")) (id! "0")) (id! "0")) [.ret (some (.field (id! "gdo_hndl") (str% "formatted")))], .decl [w! "gdo_char_t", p! "*"] (str% "buf") [] (some (id! "NULL")) [], .expr (.call (n! "FormatMessage") [(id! "GDO_FORMAT_MESSAGE_FLAGS"), (id! "NULL"), (.field (id! "gdo_hndl") (str% "last_errno")), (.call (n! "MAKELANGID") [(id! "LANG_NEUTRAL"), (id! "SUBLANG_DEFAULT")]), (.cast [w! "gdo_char_t", p! "*"] (.un (str% "&") (id! "buf"))), (id! "0"), (id! "NULL")]), .if2 (id! "buf") [.if2 (.bin (str% "!=") (.index (.field (id! "gdo_hndl") (str% "errbuf")) (id! "0")) (id! "0")) [.expr (.call (n! "GDO_SNPRINTF") [(.field (id! "gdo_hndl") (str% "formatted")), (.call (n! "_T") [(lit! "%s: %s")]), (.field (id! "gdo_hndl") (str% "errbuf")), (id! "buf")])] [.expr (.call (n! "GDO_SNPRINTF") [(.field (id! "gdo_hndl") (str% "formatted")), (.call (n! "_T") [(lit! "%s")]), (id! "buf")])], .expr (.call (n! "LocalFree") [(id! "buf")])] [.if2 (.bin (str% "!=") (.index (.field (id! "gdo_hndl") (str% "errbuf")) (id! "0")) (id! "0")) [.expr (.call (n! "GDO_SNPRINTF") [(.field (id! "gdo_hndl") (str% "formatted")), (.call (n! "_T") [(lit! "%s: error code: %zu")]), (.field (id! "gdo_hndl") (str% "errbuf")), (.cast [w! "size_t"] (.field (id! "gdo_hndl") (str% "last_errno")))])] [.expr (.call (n! "GDO_SNPRINTF") [(.field (id! "gdo_hndl") (str% "formatted")), (.call (n! "_T") [(lit! "error code: %zu")]), (.cast [w! "size_t"] (.field (id! "gdo_hndl") (str% "last_errno")))])]], .ret (some (.field (id! "gdo_hndl") (str% "formatted")))] else [.if1 (.bin (str% "==") (.index (.field (id! "gdo_hndl") (str% "errbuf")) (id! "0")) (id! "0")) [.expr (.call (n! "_gdo_save_to_errbuf") [(lit! "no error")])], .ret (some (.field (id! "gdo_hndl") (str% "errbuf")))]) }

/-- `gdo_library_path`.  C: c.c 642-684. -/
def gdo_library_path (GDO_HAVE_DLADDR : Bool) (GDO_HAVE_DLINFO : Bool) (_AIX : Bool) (_WIN32 : Bool) : Top := .fn {
  head := [w! "GDO_LINKAGE", w! "const", w! "gdo_char_t", p! "*"]
  name := str% "gdo_library_path"
  params := []
  body := 
    [.expr (.call (n! "_gdo_clear_error") [])] ++
    (if !_WIN32 && !_AIX && !GDO_HAVE_DLINFO && !GDO_HAVE_DLADDR then [.expr (.call (n! "_gdo_save_to_errbuf") [(lit! "function not implemented")]), .ret (some (id! "NULL"))] else []) ++
    [.if1 (.un (str% "!") (.call (n! "gdo_lib_is_loaded") [])) [.expr (.call (n! "_gdo_set_error_no_library_loaded") []), .ret (some (id! "NULL"))],
     .if1 (.bin (str% "!=") (.index (.field (id! "gdo_hndl") (str% "libpath")) (id! "0")) (id! "0")) [.ret (some (.field (id! "gdo_hndl") (str% "libpath")))]] ++
    (if _WIN32 || _AIX then [.if1 (.call (n! "_gdo_library_path") []) [.ret (some (.field (id! "gdo_hndl") (str% "libpath")))]] else []) ++
    (if GDO_HAVE_DLINFO then [.if1 (.call (n! "_gdo_libpath_dlinfo") []) [.ret (some (.field (id! "gdo_hndl") (str% "libpath")))]] else []) ++
    (if GDO_HAVE_DLADDR then [.if1 (.call (n! "_gdo_libpath_dladdr") []) [.ret (some (.field (id! "gdo_hndl") (str% "libpath")))]] else []) ++
    [.expr (.assign (.index (.field (id! "gdo_hndl") (str% "libpath")) (id! "0")) (id! "0")),
     .ret (some (id! "NULL"))] }

/-- `_gdo_library_path`.  C: c.c 688-724. -/
def fn_gdo_library_path (GDO_DLFCN_WIN32 : Bool) (GDO_WINAPI : Bool) : Top := .fn {
  head := [w! "GDO_INLINE", w! "bool"]
  name := str% "_gdo_library_path"
  params := []
  body := 
    (if GDO_WINAPI then [.decl [w! "const", w! "gdo_char_t", p! "*"] (str% "msg") [] (some (.cond (.paren (.bin (str% "==") (.sizeofType [w! "gdo_char_t"]) (id! "1"))) (.call (n! "_T") [(lit! "GetModuleFileNameA()")]) (.call (n! "_T") [(lit! "GetModuleFileNameW()")]))) [], .decl [w! "DWORD"] (str% "nSize") [] (some (.call (n! "GetModuleFileName") [(.field (id! "gdo_hndl") (str% "handle")), (.field (id! "gdo_hndl") (str% "libpath")), (id! "GDO_BUFLEN")])) [], .if1 (.bin (str% "||") (.bin (str% "==") (id! "nSize") (id! "0")) (.bin (str% "==") (id! "nSize") (id! "GDO_BUFLEN"))) [.expr (.call (n! "_gdo_save_error") [(id! "msg")]), .ret (some (id! "false"))]] else (if GDO_DLFCN_WIN32 then [.decl [w! "DWORD"] (str% "nSize") [] (some (.call (n! "GetModuleFileNameA") [(.cast [w! "HMODULE"] (.field (id! "gdo_hndl") (str% "handle"))), (.field (id! "gdo_hndl") (str% "libpath")), (id! "GDO_BUFLEN")])) [], .elif (.bin (str% "==") (id! "nSize") (id! "0")) [.expr (.call (n! "_gdo_save_to_errbuf") [(lit! "failed to get the library path")]), .ret (some (id! "false"))] [.if1 (.bin (str% "==") (id! "nSize") (id! "GDO_BUFLEN")) [.expr (.call (n! "_gdo_save_to_errbuf") [(lit! "buffer is too small to hold the library path")]), .ret (some (id! "false"))]]] else [])) ++
    [.ret (some (id! "true"))] }

/-- `_gdo_libpath_from_symptr`.  C: c.c 729-766. -/
def fn_gdo_libpath_from_symptr : Top := .fn {
  head := [w! "GDO_INLINE", w! "bool"]
  name := str% "_gdo_libpath_from_symptr"
  params := [([w! "struct", w! "ld_info", p! "*"], str% "info"), ([w! "uint8_t", p! "*"], str% "sym")]
  body := 
    [.decl [w! "const", w! "char", p! "*"] (str% "path") [] none [p! ",", p! "*", w! "member"],
     .decl [w! "size_t"] (str% "len") [] none [],
     .if1 (.un (str% "!") (id! "sym")) [.ret (some (id! "false"))],
     .expr (.assign (id! "member") (id! "NULL")),
     .expr (.assign (id! "path") (.call (n! "_gdo_aix_parse_ldinfo") [(id! "info"), (id! "sym"), (.cast [w! "const", w! "char", p! "*", p! "*"] (.un (str% "&") (id! "member")))])),
     .if1 (.un (str% "!") (id! "path")) [.ret (some (id! "false"))],
     .if2 (.bin (str% "&&") (id! "member") (.bin (str% "!=") (.index (id! "member") (id! "0")) (id! "0"))) [.expr (.assign (id! "len") (.bin (str% "+") (.bin (str% "+") (.call (n! "strlen") [(id! "path")]) (.call (n! "strlen") [(id! "member")])) (id! "3"))), .if1 (.bin (str% ">") (id! "len") (id! "GDO_BUFLEN")) [.ret (some (id! "false"))], .expr (.call (n! "snprintf") [(.field (id! "gdo_hndl") (str% "libpath")), (id! "len"), (lit! "%s(%s)"), (id! "path"), (id! "member")])] [.expr (.assign (id! "len") (.bin (str% "+") (.call (n! "strlen") [(id! "path")]) (id! "1"))), .if1 (.bin (str% ">") (id! "len") (id! "GDO_BUFLEN")) [.ret (some (id! "false"))], .expr (.call (n! "memcpy") [(.field (id! "gdo_hndl") (str% "libpath")), (id! "path"), (id! "len")])],
     .ret (some (id! "true"))] }

/-- `_gdo_library_path`.  C: c.c 768-790. -/
def fn_gdo_library_path2 : Top := .fn {
  head := [w! "GDO_INLINE", w! "bool"]
  name := str% "_gdo_library_path"
  params := []
  body := 
    [.decl [w! "uint8_t"] (str% "q") [p! "[", w! "GDO_AIX_LOADQUERY_BUFLEN", p! "]"] none [],
     .if1 (.call (n! "gdo_no_symbols_loaded") []) [.expr (.call (n! "_gdo_save_to_errbuf") [(lit! "no symbols were loaded")]), .ret (some (id! "false"))],
     .if1 (.bin (str% "!=") (.call (n! "loadquery") [(id! "L_GETINFO"), (id! "q"), (.sizeof (id! "q"))]) (.un (str% "-") (id! "1"))) [.decl [w! "struct", w! "ld_info", p! "*"] (str% "info") [] (some (.cast [w! "struct", w! "ld_info", p! "*"] (id! "q"))) [], .if1 (.rep .symbol (str% "||") (id! "false") (.call (n! "_gdo_libpath_from_symptr") [(id! "info"), (.cast [w! "uint8_t", p! "*"] (.id (.hole (str% "GDO_RAWPTR_") (str% "symbol"))))])) [.ret (some (id! "true"))]],
     .expr (.call (n! "_gdo_save_to_errbuf") [(lit! "loadquery() failed to get the library path")]),
     .ret (some (id! "false"))] }

/-- `_gdo_libpath_dlinfo`.  C: c.c 795-828. -/
def fn_gdo_libpath_dlinfo (__linux__ : Bool) : Top := .fn {
  head := [w! "GDO_INLINE", w! "bool"]
  name := str% "_gdo_libpath_dlinfo"
  params := []
  body := 
    [.decl [w! "struct", w! "link_map", p! "*"] (str% "lm") [] (some (id! "NULL")) [],
     .expr (.call (n! "_gdo_clear_error") []),
     .if1 (.bin (str% "==") (.call (n! "dlinfo") [(.field (id! "gdo_hndl") (str% "handle")), (id! "RTLD_DI_LINKMAP"), (.un (str% "&") (id! "lm"))]) (.un (str% "-") (id! "1"))) [.expr (.call (n! "_gdo_save_error") [(id! "NULL")]), .ret (some (id! "false"))],
     .if1 (.bin (str% "||") (.un (str% "!") (.arrow (id! "lm") (str% "l_name"))) (.bin (str% "==") (.index (.arrow (id! "lm") (str% "l_name")) (id! "0")) (id! "0"))) [.expr (.call (n! "_gdo_save_to_errbuf") [(lit! "dlinfo() failed to get library path")]), .ret (some (id! "false"))]] ++
    (if __linux__ then [.if1 (.bin (str% "&&") (.bin (str% "!=") (.index (.arrow (id! "lm") (str% "l_name")) (id! "0")) (ch! "/")) (.call (n! "_gdo_fullpath_procmap") [(id! "lm"), (.field (id! "gdo_hndl") (str% "libpath")), (id! "GDO_BUFLEN")])) [.ret (some (id! "true"))]] else []) ++
    [.decl [w! "size_t"] (str% "len") [] (some (.bin (str% "+") (.call (n! "strlen") [(.arrow (id! "lm") (str% "l_name"))]) (id! "1"))) [],
     .if1 (.bin (str% ">") (id! "len") (id! "GDO_BUFLEN")) [.ret (some (id! "false"))],
     .expr (.call (n! "memcpy") [(.field (id! "gdo_hndl") (str% "libpath")), (.arrow (id! "lm") (str% "l_name")), (id! "len")]),
     .ret (some (id! "true"))] }

/-- `_gdo_libpath_dladdr`.  C: c.c 833-867. -/
def fn_gdo_libpath_dladdr : Top := .fn {
  head := [w! "GDO_INLINE", w! "bool"]
  name := str% "_gdo_libpath_dladdr"
  params := []
  body := 
    [.decl [w! "const", w! "char", p! "*"] (str% "path") [] (some (id! "NULL")) [],
     .decl [w! "Dl_info"] (str% "info") [] none [],
     .expr (.call (n! "_gdo_clear_error") []),
     .if1 (.call (n! "gdo_no_symbols_loaded") []) [.expr (.call (n! "_gdo_save_to_errbuf") [(lit! "no symbols were loaded")]), .ret (some (id! "false"))],
     .if1 (.rep .symbol (str% "||") (id! "false") (.call (n! "_gdo_call_dladdr") [(.cast [w! "void", p! "*"] (.id (.hole (str% "GDO_RAWPTR_") (str% "symbol")))), (.un (str% "&") (id! "info"))])) [.expr (.assign (id! "path") (.field (id! "info") (str% "dli_fname")))],
     .if1 (.un (str% "!") (id! "path")) [.expr (.call (n! "_gdo_save_to_errbuf") [(lit! "dladdr() failed to get library path")]), .ret (some (id! "false"))],
     .decl [w! "size_t"] (str% "len") [] (some (.bin (str% "+") (.call (n! "strlen") [(id! "path")]) (id! "1"))) [],
     .if1 (.bin (str% ">") (id! "len") (id! "GDO_BUFLEN")) [.ret (some (id! "false"))],
     .expr (.call (n! "memcpy") [(.field (id! "gdo_hndl") (str% "libpath")), (id! "path"), (id! "len")]),
     .ret (some (id! "true"))] }

/-- `_gdo_noop`.  C: c.c 881-881. -/
def fn_gdo_noop : Top := .fn {
  head := [w! "void"]
  name := str% "_gdo_noop"
  params := []
  body := [] }

/-- `_gdo_print_error`.  C: c.c 884-904. -/
def fn_gdo_print_error (GDO_USE_MESSAGE_BOX : Bool) (_WIN32 : Bool) : Top := .fn {
  head := [w! "GDO_INLINE", w! "void"]
  name := str% "_gdo_print_error"
  params := [([w! "const", w! "gdo_char_t", p! "*"], str% "fmt"), ([w! "const", w! "gdo_char_t", p! "*"], str% "sym"), ([w! "const", w! "gdo_char_t", p! "*"], str% "msg")]
  body := 
    (if _WIN32 then (if GDO_USE_MESSAGE_BOX then [.expr (.call (n! "_sntprintf_s") [(.field (id! "gdo_hndl") (str% "errbuf")), (id! "GDO_BUFLEN"), (id! "_TRUNCATE"), (id! "fmt"), (id! "sym"), (id! "msg")]), .expr (.call (n! "MessageBox") [(id! "NULL"), (.field (id! "gdo_hndl") (str% "errbuf")), (.call (n! "_T") [(lit! "Error")]), (.bin (str% "|") (id! "MB_OK") (id! "MB_ICONERROR"))])] else [.expr (.call (n! "_ftprintf_s") [(id! "stderr"), (id! "fmt"), (id! "sym"), (id! "msg")]), .expr (.call (n! "_fputtc") [(.call (n! "_T") [(ch! "\\n")]), (id! "stderr")])]) else [.expr (.call (n! "fprintf") [(id! "stderr"), (id! "fmt"), (id! "sym"), (id! "msg")]), .expr (.call (n! "fputc") [(ch! "\\n"), (id! "stderr")])]) }

/-- `_gdo_wrap_check_loaded`.  C: c.c 907-967. -/
def fn_gdo_wrap_check_loaded (GDO_ENABLE_AUTOLOAD : Bool) (GDO_ENABLE_AUTOLOAD_LAZY : Bool) : Top := .fn {
  head := [w! "GDO_LINKAGE", w! "void"]
  name := str% "_gdo_wrap_check_loaded"
  params := [([w! "void", p! "*"], str% "symptr"), ([w! "int"], str% "load"), ([w! "const", w! "gdo_char_t", p! "*"], str% "sym")]
  body := 
    [.decl [w! "const", w! "gdo_char_t", p! "*"] (str% "msg") [] none [],
     .if1 (.bin (str% "!=") (id! "symptr") (id! "NULL")) [.ret none]] ++
    (if GDO_ENABLE_AUTOLOAD then ([.expr (.call (n! "gdo_enable_autorelease") []), .if1 (.un (str% "!") (.call (n! "gdo_lib_is_loaded") [])) [.expr (.call (n! "gdo_load_lib") [])]] ++ (if GDO_ENABLE_AUTOLOAD_LAZY then [.if1 (.call (n! "gdo_load_symbol") [(id! "load")]) [.ret none]] else [.expr (.call (n! "GDO_UNUSED_REF") [(id! "load")]), .if1 (.call (n! "gdo_load_all_symbols") []) [.ret none]]) ++ [.expr (.assign (id! "msg") (.call (n! "gdo_last_error") [])), .if2 (.call (n! "_gdo_tcsstr") [(id! "msg"), (id! "GDO_DEFAULT_LIB")]) [.expr (.call (n! "_gdo_print_error") [(.call (n! "_T") [(lit! "error: %s: %s")]), (id! "sym"), (id! "msg")])] [.expr (.call (n! "_gdo_print_error") [(.cat [(.call (n! "_T") [(lit! "error: ")]), (id! "GDO_DEFAULT_LIB"), (.call (n! "_T") [(lit! ": %s: %s")])]), (id! "sym"), (id! "msg")])], .expr (.call (n! "gdo_force_free_lib") []), .expr (.call (n! "exit") [(id! "1")])]) else [.if2 (.un (str% "!") (.call (n! "gdo_lib_is_loaded") [])) [.expr (.assign (id! "msg") (.call (n! "_T") [(lit! "library not loaded")]))] [.expr (.assign (id! "msg") (.call (n! "_T") [(lit! "symbol not loaded")]))], .expr (.call (n! "GDO_UNUSED_REF") [(id! "load")]), .expr (.call (n! "_gdo_print_error") [(.call (n! "_T") [(lit! "fatal error: %s: %s")]), (id! "sym"), (id! "msg")]), .expr (.call (n! "abort") [])]) }

end C

/-- C: common.c, part 1. -/
def commonPart1 (GDO_WINAPI : Bool) : List Top := [C.fn_gdo_call_dlsym GDO_WINAPI, C.fn_gdo_call_dlclose GDO_WINAPI]

/-- C: common.c, part 2. -/
def commonPart2 (GDO_HAVE_DLADDR : Bool) (GDO_HAVE_DLMOPEN : Bool) (GDO_WINAPI : Bool) : List Top := (if !GDO_WINAPI then ([C.fn_gdo_call_dlopen GDO_HAVE_DLMOPEN] ++ (if GDO_HAVE_DLADDR then [C.fn_gdo_call_dladdr] else [])) else [])

/-- C: common.c, part 3. -/
def commonPart3 (_AIX : Bool) : List Top := (if _AIX then [C.fn_gdo_aix_parse_ldinfo] else [])

/-- C: common.c, part 4. -/
def commonPart4 (GDO_HAVE_DLINFO : Bool) (PROCMAP_QUERY : Bool) (__linux__ : Bool) : List Top := (if GDO_HAVE_DLINFO && __linux__ then ((if PROCMAP_QUERY then [] else []) ++ [C.fn_gdo_fullpath_procmap PROCMAP_QUERY]) else [])

/-- C: c.c, part 1. -/
def cPart1 (GDO_USE_MESSAGE_BOX : Bool) (_MSC_VER : Bool) : List Top := (if _MSC_VER && GDO_USE_MESSAGE_BOX then [] else [])

/-- C: c.c, part 2. -/
def cPart2 (GDO_STATIC : Bool) (_GDO_TARGET_WIDECHAR : Bool) : List Top := ((if _GDO_TARGET_WIDECHAR then [] else []) ++ (if GDO_STATIC then [] else []))

/-- C: c.c, part 3. -/
def cPart3 (GDO_WINAPI : Bool) (_countof : Bool) : List Top := ((if !_countof then [] else []) ++ [.decl [w! "GDO_OBJ_LINKAGE", w! "gdo_handle_t", w! "gdo_hndl", p! ";"], .decl [w! "GDO_INLINE", w! "void", w! "_gdo_load_library", p! "(", w! "const", w! "gdo_char_t", p! "*", w! "filename", p! ",", w! "int", w! "flags", p! ",", w! "bool", w! "new_namespace", p! ")", p! ";"], .decl [w! "GDO_INLINE", w! "void", p! "*", w! "_gdo_sym", p! "(", w! "const", w! "char", p! "*", w! "symbol", p! ",", w! "const", w! "gdo_char_t", p! "*", w! "msg", p! ")", p! ";"]] ++ (if GDO_WINAPI then [.decl [w! "GDO_INLINE", w! "HMODULE", w! "_gdo_load_library_ex", p! "(", w! "const", w! "gdo_char_t", p! "*", w! "filename", p! ",", w! "int", w! "flags", p! ")", p! ";"]] else []))

/-- C: c.c, part 4. -/
def cPart4 (_AIX : Bool) (_WIN32 : Bool) : List Top := (if _WIN32 || _AIX then [.decl [w! "GDO_INLINE", w! "bool", w! "_gdo_library_path", p! "(", w! "void", p! ")", p! ";"]] else [])

/-- C: c.c, part 5. -/
def cPart5 (GDO_HAVE_DLADDR : Bool) (GDO_HAVE_DLINFO : Bool) : List Top := ((if GDO_HAVE_DLINFO then [.decl [w! "GDO_INLINE", w! "bool", w! "_gdo_libpath_dlinfo", p! "(", w! "void", p! ")", p! ";"]] else []) ++ (if GDO_HAVE_DLADDR then [.decl [w! "GDO_INLINE", w! "bool", w! "_gdo_libpath_dladdr", p! "(", w! "void", p! ")", p! ";"]] else []))

/-- C: c.c, part 6. -/
def cPart6 (GDO_WINAPI : Bool) (_WIN32 : Bool) : List Top := ([C.fn_gdo_tcsstr _WIN32] ++ (if _WIN32 then [] else []) ++ (if GDO_WINAPI then [] else []) ++ [C.fn_gdo_save_to_errbuf GDO_WINAPI] ++ (if GDO_WINAPI then [C.fn_gdo_clear_error, C.fn_gdo_save_error, C.fn_gdo_set_error_no_library_loaded] else [C.fn_gdo_clear_error2, C.fn_gdo_save_error2, C.fn_gdo_set_error_no_library_loaded2]))

/-- C: c.c, part 7. -/
def cPart7 (GDO_DEFAULT_LIB : Bool) (GDO_WINAPI : Bool) : List Top := ((if GDO_DEFAULT_LIB then [C.gdo_load_lib] else []) ++ (if GDO_DEFAULT_LIB then [C.gdo_load_lib_and_symbols] else []) ++ [C.gdo_load_lib_name, C.gdo_load_lib_name_and_symbols, C.gdo_load_lib_args, C.fn_gdo_load_library GDO_WINAPI])

/-- C: c.c, part 8. -/
def cPart8 (GDO_CONVERT_FILENAME : Bool) (GDO_WINAPI : Bool) (_GDO_TARGET_WIDECHAR : Bool) : List Top := (if GDO_WINAPI then ((if !_GDO_TARGET_WIDECHAR && GDO_CONVERT_FILENAME then [C.fn_gdo_mbstowcs] else []) ++ [C.fn_gdo_load_library_ex GDO_CONVERT_FILENAME _GDO_TARGET_WIDECHAR]) else [])

/-- C: c.c, part 9. -/
def cPart9 (GDO_WINAPI : Bool) : List Top := [C.gdo_lib_is_loaded, C.gdo_free_lib GDO_WINAPI, C.gdo_force_free_lib, C.gdo_enable_autorelease, C.gdo_all_symbols_loaded, C.gdo_no_symbols_loaded, C.gdo_any_symbol_loaded, C.gdo_load_all_symbols, C.fn_gdo_sym, C.gdo_load_symbol, C.gdo_load_symbol_name, C.gdo_last_error GDO_WINAPI]

/-- C: c.c, part 10. -/
def cPart10 (GDO_HAVE_DLADDR : Bool) (GDO_HAVE_DLINFO : Bool) (_AIX : Bool) (_WIN32 : Bool) : List Top := [C.gdo_library_path GDO_HAVE_DLADDR GDO_HAVE_DLINFO _AIX _WIN32]

/-- C: c.c, part 11. -/
def cPart11 (GDO_DLFCN_WIN32 : Bool) (GDO_WINAPI : Bool) (_WIN32 : Bool) : List Top := (if _WIN32 then [C.fn_gdo_library_path GDO_DLFCN_WIN32 GDO_WINAPI] else [])

/-- C: c.c, part 12. -/
def cPart12 (_AIX : Bool) : List Top := (if _AIX then [C.fn_gdo_libpath_from_symptr, C.fn_gdo_library_path2] else [])

/-- C: c.c, part 13. -/
def cPart13 (GDO_HAVE_DLINFO : Bool) (__linux__ : Bool) : List Top := (if GDO_HAVE_DLINFO then [C.fn_gdo_libpath_dlinfo __linux__] else [])

/-- C: c.c, part 14. -/
def cPart14 (GDO_HAVE_DLADDR : Bool) : List Top := (if GDO_HAVE_DLADDR then [C.fn_gdo_libpath_dladdr] else [])

/-- C: c.c, part 15. -/
def cPart15 : List Top := []

/-- C: c.c, part 16. -/
def cPart16 (GDO_ENABLE_AUTOLOAD : Bool) (GDO_ENABLE_AUTOLOAD_LAZY : Bool) (GDO_USE_MESSAGE_BOX : Bool) (GDO_WRAP_FUNCTIONS : Bool) (_MSC_VER : Bool) (_WIN32 : Bool) (__GNUC__ : Bool) : List Top := (if GDO_WRAP_FUNCTIONS || GDO_ENABLE_AUTOLOAD then ((if !__GNUC__ && !_MSC_VER then [C.fn_gdo_noop] else []) ++ [C.fn_gdo_print_error GDO_USE_MESSAGE_BOX _WIN32, C.fn_gdo_wrap_check_loaded GDO_ENABLE_AUTOLOAD GDO_ENABLE_AUTOLOAD_LAZY]) else [])

/-- C: c.c, part 17. -/
def cPart17 : List Top := []

/-- C: c.c, part 18. -/
def cPart18 (GDO_DISABLE_ALIASING : Bool) (GDO_SEPARATE : Bool) (GDO_WRAP_IS_VISIBLE : Bool) : List Top := (if !GDO_SEPARATE && !GDO_DISABLE_ALIASING then (if !GDO_WRAP_IS_VISIBLE then [] else []) else [])

/-- The code of `common.c`; `D`: which macros are defined. -/
def commonProg (D : Str → Bool) : List Top :=
  commonPart1 (D (str% "GDO_WINAPI")) ++
    commonPart2 (D (str% "GDO_HAVE_DLADDR")) (D (str% "GDO_HAVE_DLMOPEN")) (D (str% "GDO_WINAPI")) ++
    commonPart3 (D (str% "_AIX")) ++
    commonPart4 (D (str% "GDO_HAVE_DLINFO")) (D (str% "PROCMAP_QUERY")) (D (str% "__linux__"))

/-- The code of `c.c`; `D`: which macros are defined, `skip`: `-param=skip`. -/
def cProg (skip : Bool) (D : Str → Bool) : List Top :=
  (cPart1 (D (str% "GDO_USE_MESSAGE_BOX")) (D (str% "_MSC_VER")) ++
    cPart2 (D (str% "GDO_STATIC")) (D (str% "_GDO_TARGET_WIDECHAR")) ++
    cPart3 (D (str% "GDO_WINAPI")) (D (str% "_countof")) ++
    cPart4 (D (str% "_AIX")) (D (str% "_WIN32")) ++
    cPart5 (D (str% "GDO_HAVE_DLADDR")) (D (str% "GDO_HAVE_DLINFO")) ++
    cPart6 (D (str% "GDO_WINAPI")) (D (str% "_WIN32")) ++
    cPart7 (D (str% "GDO_DEFAULT_LIB")) (D (str% "GDO_WINAPI")) ++
    cPart8 (D (str% "GDO_CONVERT_FILENAME")) (D (str% "GDO_WINAPI")) (D (str% "_GDO_TARGET_WIDECHAR")) ++
    cPart9 (D (str% "GDO_WINAPI")) ++
    cPart10 (D (str% "GDO_HAVE_DLADDR")) (D (str% "GDO_HAVE_DLINFO")) (D (str% "_AIX")) (D (str% "_WIN32")) ++
    cPart11 (D (str% "GDO_DLFCN_WIN32")) (D (str% "GDO_WINAPI")) (D (str% "_WIN32")) ++
    cPart12 (D (str% "_AIX")) ++
    cPart13 (D (str% "GDO_HAVE_DLINFO")) (D (str% "__linux__")) ++
    cPart14 (D (str% "GDO_HAVE_DLADDR"))) ++
  ((if skip then [] else
    cPart15 ++
    cPart16 (D (str% "GDO_ENABLE_AUTOLOAD")) (D (str% "GDO_ENABLE_AUTOLOAD_LAZY")) (D (str% "GDO_USE_MESSAGE_BOX")) (D (str% "GDO_WRAP_FUNCTIONS")) (D (str% "_MSC_VER")) (D (str% "_WIN32")) (D (str% "__GNUC__"))) ++
  (cPart17 ++
    cPart18 (D (str% "GDO_DISABLE_ALIASING")) (D (str% "GDO_SEPARATE")) (D (str% "GDO_WRAP_IS_VISIBLE"))))

end Gdo.Cc
