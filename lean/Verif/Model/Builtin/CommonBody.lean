import Verif.Basic

/-!
The text of `src/templates/common.c`, line by line.
-/

namespace Gdo.Builtin
open Gdo

/-- `templates/common.c` 1-100. -/
def commonBody0 : List Str := [
  str% "/* common inline routines */",
  [],
  str% "GDO_INLINE void *_gdo_call_dlsym(gdo_hmod_t handle, const char *symbol)",
  str% "{",
  str% "#ifdef GDO_WINAPI",
  str% "    return (void *)GetProcAddress(handle, symbol);",
  str% "#else",
  str% "    return dlsym(handle, symbol);",
  str% "#endif",
  str% "}",
  [],
  [],
  str% "GDO_INLINE bool _gdo_call_dlclose(gdo_hmod_t handle)",
  str% "{",
  str% "#ifdef GDO_WINAPI",
  str% "    return (FreeLibrary(handle) == TRUE);",
  str% "#else",
  str% "    return (dlclose(handle) == 0);",
  str% "#endif",
  str% "}",
  [],
  [],
  str% "#if !defined(GDO_WINAPI)",
  [],
  str% "GDO_INLINE gdo_hmod_t _gdo_call_dlopen(const char *filename, int flags, bool new_namespace)",
  str% "{",
  str% "#ifdef GDO_HAVE_DLMOPEN",
  str% "    if (new_namespace) {",
  str% "        return dlmopen(LM_ID_NEWLM, filename, flags);",
  str% "    }",
  str% "#else",
  str% "    (void)new_namespace;",
  str% "#endif",
  [],
  str% "    return dlopen(filename, flags);",
  str% "}",
  [],
  [],
  str% "#ifdef GDO_HAVE_DLADDR",
  str% "GDO_INLINE bool _gdo_call_dladdr(const void *addr, Dl_info *info)",
  str% "{",
  str% "    info->dli_fname = NULL;",
  [],
  str% "    return (addr && dladdr(addr, info) != 0 && info->dli_fname && info->dli_fname[0] != 0);",
  str% "}",
  str% "#endif",
  [],
  str% "#endif //!GDO_WINAPI",
  [],
  [],
  str% "#ifdef _AIX",
  [],
  str% "#include <inttypes.h>",
  str% "#include <string.h>",
  str% "#include <sys/ldr.h>",
  [],
  [],
  str% "/* parse ld_info struct and search for library filename that provides the address of `sym' */",
  str% "GDO_INLINE const char *_gdo_aix_parse_ldinfo(struct ld_info *info, uint8_t *sym, const char **member)",
  str% "{",
  str% "    struct ld_info *cur = info;",
  [],
  str% "    while (true) {",
  str% "        uint8_t *text = (uint8_t *)cur->ldinfo_textorg;",
  str% "        uint8_t *data = (uint8_t *)cur->ldinfo_dataorg;",
  str% "        uint8_t *text_end = text + cur->ldinfo_textsize;",
  str% "        uint8_t *data_end = data + cur->ldinfo_datasize;",
  [],
  str% "        /* check if symbol pointer address lies within current text or data section */",
  str% "        if ((sym >= text && sym < text_end) || (sym >= data && sym < data_end)) {",
  str% "            /* found */",
  str% "            break;",
  str% "        } else if (cur->ldinfo_next == 0) {",
  str% "            /* end of linked list */",
  str% "            return NULL;",
  str% "        } else {",
  str% "            /* next entry in linked list */",
  str% "            cur = (struct ld_info *)((uint8_t *)cur + cur->ldinfo_next);",
  str% "        }",
  str% "    }",
  [],
  str% "    const char *path = cur->ldinfo_filename;",
  [],
  str% "    if (!path || path[0] == 0) {",
  str% "        return NULL;",
  str% "    }",
  [],
  str% "    /* archive member name after library path (can be empty) */",
  str% "    *member = path + strlen(path) + 1;",
  [],
  str% "    return path;",
  str% "}",
  [],
  str% "#endif //_AIX",
  [],
  [],
  str% "#if defined(GDO_HAVE_DLINFO) && defined(__linux__)",
  [],
  str% "#include <inttypes.h>",
  str% "#include <stdio.h>"]

/-- `templates/common.c` 101-186. -/
def commonBody1 : List Str := [
  str% "#include <stdlib.h>",
  str% "#include <string.h>",
  str% "#include <linux/fs.h>",
  [],
  str% "#ifdef PROCMAP_QUERY",
  str% "# include <fcntl.h>",
  str% "# include <sys/ioctl.h>",
  str% "# include <unistd.h>",
  str% "#endif",
  [],
  [],
  str% "/* try to get the full library path from process map */",
  str% "GDO_INLINE bool _gdo_fullpath_procmap(struct link_map *lm, char *buf, size_t bufsize)",
  str% "{",
  str% "#ifdef PROCMAP_QUERY",
  [],
  str% "    /* use ioctl() to parse /proc/self/maps */",
  [],
  str% "    struct procmap_query q;",
  [],
  str% "    int fd = open(\"/proc/self/maps\", O_RDONLY | O_NONBLOCK);",
  [],
  str% "    if (fd != -1) {",
  str% "        memset(&q, 0, sizeof(struct procmap_query));",
  [],
  str% "        q.size          = sizeof(struct procmap_query);",
  str% "        q.query_flags   = PROCMAP_QUERY_FILE_BACKED_VMA;",
  str% "        q.query_addr    = (__u64)lm->l_addr;  /* find this address */",
  str% "        q.vma_name_size = bufsize;     /* in: buffer size; out: saved path length + NUL byte */",
  str% "        q.vma_name_addr = (__u64)buf;  /* buffer to save pathname */",
  [],
  str% "        if (ioctl(fd, PROCMAP_QUERY, &q) == 0 && q.vma_name_size > 0) {",
  str% "            close(fd);",
  str% "            return true;",
  str% "        }",
  [],
  str% "        close(fd);",
  str% "    }",
  [],
  str% "    buf[0] = 0;",
  [],
  str% "#endif //PROCMAP_QUERY",
  [],
  str% "    /* use getline() and sscanf() to parse /proc/self/maps */",
  [],
  str% "    FILE *fp = fopen(\"/proc/self/maps\", \"r\");",
  [],
  str% "    if (!fp) {",
  str% "        return false;",
  str% "    }",
  [],
  str% "    uintmax_t start, end;",
  str% "    char mode[5];",
  str% "    char *line = NULL, *path = NULL;",
  str% "    size_t n = 0;",
  [],
  str% "    while (getline(&line, &n, fp) != -1) {",
  str% "        /* address start-end         mode offset   device inode      pathname */",
  str% "        /* 7de29d200000-7de29d228000 r--p 00000000 103:01 2758110    /usr/lib/x86_64-linux-gnu/libc.so.6\\n */",
  str% "        int rv = sscanf(line, \"%jx-%jx %4[rwxsp-] %*u %*u:%*u %*u %m[^\\n]\",",
  str% "                        &start, &end, mode, &path);",
  [],
  str% "        if (rv == 4 && lm->l_addr >= start && lm->l_addr < end) {",
  str% "            /* match */",
  str% "            break;",
  str% "        }",
  [],
  str% "        free(path);",
  str% "        path = NULL;",
  str% "    }",
  [],
  str% "    free(line);",
  str% "    fclose(fp);",
  [],
  str% "    if (path && (n = strlen(path)) < bufsize) {",
  str% "        memcpy(buf, path, n + 1);",
  str% "        free(path);",
  str% "        return true;",
  str% "    }",
  [],
  str% "    free(path);",
  str% "    return false;",
  str% "}",
  [],
  str% "#endif //GDO_HAVE_DLINFO && __linux__",
  []]

/-- The lines of `templates/common.c` (1-186). -/
def commonBody : List (List Str) := [commonBody0, commonBody1]

end Gdo.Builtin
