import Verif.Lemmas.CCallLink

/-!
Lemmas: the names in the generated C code stay different when they get another prefix.
-/

set_option maxRecDepth 20000

namespace Gdo.Cc
open Gdo Tmpl Rename Gen Opt

/-- How a name is renamed: with or without an underscore in front of the prefix, with the
    prefix in upper or lower case, and what is behind it; or not at all. -/
inductive Form
  | ren (underscore upper : Bool) (tail : Str)
  | same (w : Str)
  deriving DecidableEq

def form (w : Str) : Form :=
  if (str% "GDO_").isPrefixOf w then .ren false true (str% "_" ++ w.drop 4)
  else if (str% "_GDO_").isPrefixOf w then .ren true true (str% "_" ++ w.drop 5)
  else if (str% "gdo_").isPrefixOf w then .ren false false (str% "_" ++ w.drop 4)
  else if (str% "_gdo_").isPrefixOf w then .ren true false (str% "_" ++ w.drop 5)
  else .same w

def Form.text (u l : Str) : Form → Str
  | .ren p k t => (if p then str% "_" else []) ++ (if k then u else l) ++ t
  | .same w => w

theorem newName_form (u l w : Str) (hw : w ≠ str% "gdo") : newName u l w = (form w).text u l := by
  unfold newName form
  split
  · simp [Form.text]
  · split
    · simp [Form.text]
    · split
      · simp [Form.text]
      · split
        · simp [Form.text]
        · first | rfl | (rw [if_neg hw]; rfl)

/-- Whether two names are different with every prefix. -/
def apart : Form → Form → Bool
  | .same a, .same b => a != b
  | .ren p k s, .ren q j t =>
    if p = q ∧ k = j then s != t
    else (!s.isSuffixOf t && !t.isSuffixOf s) || (k = j && p && !q && s.length + 1 != t.length) || (k = j && !p && q && t.length + 1 != s.length)
  | .ren p _ s, .same w => !s.isSuffixOf w || decide (w.length < s.length + p.toNat)
  | .same w, .ren p _ s => !s.isSuffixOf w || decide (w.length < s.length + p.toNat)

theorem suffix_cmp {a b s t : Str} (h : a ++ s = b ++ t) : s <:+ t ∨ t <:+ s := by
  by_cases hl : s.length ≤ t.length
  · exact .inl (List.suffix_of_suffix_length_le ⟨a, rfl⟩ ⟨b, h.symm⟩ hl)
  · exact .inr (List.suffix_of_suffix_length_le ⟨b, h.symm⟩ ⟨a, rfl⟩ (by omega))

theorem apart_ren {u l w s : Str} {p k : Bool} (h : (!s.isSuffixOf w || decide (w.length < s.length + p.toNat)) = true) : (Form.ren p k s).text u l ≠ w := by
  intro e
  simp only [Form.text] at e
  rw [Bool.or_eq_true] at h
  rcases h with h | h
  · have : s <:+ w := ⟨_, e⟩
    rw [← List.isSuffixOf_iff_suffix] at this
    simp [this] at h
  · have hl := congrArg List.length e
    simp only [List.length_append] at hl
    have h := of_decide_eq_true h
    cases p <;> simp at hl h <;> omega

theorem apart_ne {u l : Str} : ∀ {f g : Form}, apart f g = true → f.text u l ≠ g.text u l
  | .same a, .same b, h => by
    simpa [apart, Form.text] using h
  | .ren p k s, .same w, h => apart_ren h
  | .same w, .ren p k s, h => (apart_ren h).symm
  | .ren p k s, .ren q j t, h => by
    intro e
    simp only [apart] at h
    split at h
    · rename_i hpk
      obtain ⟨rfl, rfl⟩ := hpk
      simp only [Form.text] at e
      have := List.append_cancel_left e
      simp [this] at h
    · rename_i hpk
      have hlen := congrArg List.length e
      simp only [Form.text, List.length_append] at hlen
      simp only [Bool.or_eq_true] at h
      rcases h with (h | h) | h
      · have := suffix_cmp (show _ ++ s = _ ++ t from e)
        rw [← List.isSuffixOf_iff_suffix, ← List.isSuffixOf_iff_suffix] at this
        rcases this with h' | h' <;> simp [h'] at h
      · simp only [Bool.and_eq_true, Bool.not_eq_true', decide_eq_true_eq, bne_iff_ne] at h
        obtain ⟨⟨⟨rfl, rfl⟩, rfl⟩, h⟩ := h
        simp at hlen
        omega
      · simp only [Bool.and_eq_true, Bool.not_eq_true', decide_eq_true_eq, bne_iff_ne] at h
        obtain ⟨⟨⟨rfl, rfl⟩, rfl⟩, h⟩ := h
        simp at hlen
        omega

/-! ### The names in the code -/

/-- The names of a token. -/
def fixedOf : STok → List Str
  | .word (.fixed w) => [w]
  | _ => []

/-- The names in some code. -/
def wordsOf : List Cc.Item → List Str
  | [] => []
  | .tok t :: r => fixedOf t ++ wordsOf r
  | .rep _ ts :: r => ts.flatMap fixedOf ++ wordsOf r

/-- All names. -/
def allNames : List Str :=
  [str% "abort", str% "fputc", str% "fprintf",
   str% "GDO_INLINE", str% "void", str% "_gdo_call_dlsym", str% "gdo_hmod_t", str% "handle", str% "const", str% "char", str% "symbol", str% "return",
   str% "GetProcAddress", str% "bool", str% "_gdo_call_dlclose", str% "FreeLibrary", str% "TRUE", str% "_gdo_aix_parse_ldinfo", str% "struct",
   str% "ld_info", str% "info", str% "uint8_t", str% "sym", str% "member", str% "cur", str% "while", str% "true", str% "text", str% "ldinfo_textorg",
   str% "data", str% "ldinfo_dataorg", str% "text_end", str% "ldinfo_textsize", str% "data_end", str% "ldinfo_datasize", str% "if", str% "break",
   str% "else", str% "ldinfo_next", str% "0", str% "NULL", str% "path", str% "ldinfo_filename", str% "strlen", str% "1", str% "_gdo_fullpath_procmap",
   str% "link_map", str% "lm", str% "buf", str% "size_t", str% "bufsize", str% "procmap_query", str% "q", str% "int", str% "fd", str% "open",
   str% "O_RDONLY", str% "O_NONBLOCK", str% "memset", str% "sizeof", str% "size", str% "query_flags", str% "PROCMAP_QUERY_FILE_BACKED_VMA",
   str% "query_addr", str% "__u64", str% "l_addr", str% "vma_name_size", str% "vma_name_addr", str% "ioctl", str% "PROCMAP_QUERY", str% "close",
   str% "FILE", str% "fp", str% "fopen", str% "false", str% "uintmax_t", str% "start", str% "end", str% "mode", str% "5", str% "line", str% "n",
   str% "getline", str% "rv", str% "sscanf", str% "4", str% "free", str% "fclose", str% "memcpy", str% "GDO_OBJ_LINKAGE", str% "gdo_handle_t",
   str% "gdo_hndl", str% "_gdo_load_library", str% "gdo_char_t", str% "filename", str% "flags", str% "new_namespace", str% "_gdo_sym", str% "msg",
   str% "HMODULE", str% "_gdo_load_library_ex", str% "_gdo_library_path", str% "_gdo_libpath_dlinfo", str% "_gdo_libpath_dladdr", str% "_gdo_tcsstr",
   str% "haystack", str% "needle", str% "_tcsstr", str% "_gdo_save_to_errbuf", str% "GDO_SNPRINTF", str% "errbuf", str% "_T", str% "formatted",
   str% "_gdo_clear_error", str% "last_errno", str% "_gdo_save_error", str% "GetLastError", str% "_gdo_set_error_no_library_loaded",
   str% "ERROR_INVALID_HANDLE", str% "GDO_LINKAGE", str% "gdo_load_lib", str% "gdo_load_lib_name", str% "GDO_DEFAULT_LIB",
   str% "gdo_load_lib_and_symbols", str% "gdo_load_all_symbols", str% "gdo_load_lib_args", str% "GDO_DEFAULT_FLAGS",
   str% "gdo_load_lib_name_and_symbols", str% "gdo_lib_is_loaded", str% "GDO_SET_LAST_ERRNO", str% "ERROR_INVALID_NAME", str% "_tcschr", str% "copy",
   str% "_tcsdup", str% "for", str% "p", str% "GDO_UNUSED_REF", str% "LoadLibraryEx", str% "gdo_free_lib", str% "libpath", str% "GDO_RAWPTR_",
   str% "gdo_force_free_lib", str% "gdo_enable_autorelease", str% "free_lib_reg", str% "atexit", str% "gdo_all_symbols_loaded",
   str% "gdo_no_symbols_loaded", str% "gdo_any_symbol_loaded", str% "ptr", str% "gdo_load_symbol", str% "symbol_num", str% "switch", str% "case",
   str% "GDO_LOAD_", str% "default", str% "ERROR_NOT_FOUND", str% "gdo_load_symbol_name", str% "ERROR_INVALID_PARAMETER", str% "pfx",
   str% "GDO_COMMON_PREFIX", str% "pfxlen", str% "strncmp", str% "len", str% "curr", str% "curr_len", str% "strcmp", str% "GDO_XHS",
   str% "gdo_last_error", str% "FormatMessage", str% "GDO_FORMAT_MESSAGE_FLAGS", str% "MAKELANGID", str% "LANG_NEUTRAL", str% "SUBLANG_DEFAULT",
   str% "LocalFree", str% "gdo_library_path", str% "DWORD", str% "nSize", str% "GetModuleFileName", str% "GDO_BUFLEN", str% "_gdo_libpath_from_symptr",
   str% "3", str% "snprintf", str% "GDO_AIX_LOADQUERY_BUFLEN", str% "loadquery", str% "L_GETINFO", str% "dlinfo", str% "RTLD_DI_LINKMAP", str% "l_name",
   str% "Dl_info", str% "_gdo_call_dladdr", str% "dli_fname", str% "_gdo_print_error", str% "fmt", str% "_sntprintf_s", str% "_TRUNCATE",
   str% "MessageBox", str% "MB_OK", str% "MB_ICONERROR", str% "_gdo_wrap_check_loaded", str% "symptr", str% "load", str% "exit", str% "dlsym",
   str% "dlclose", str% "_gdo_call_dlopen", str% "dlopen", str% "strstr", str% "dlerror", str% "dlmopen", str% "LM_ID_NEWLM", str% "addr",
   str% "dladdr", str% "_ftprintf_s", str% "stderr", str% "_fputtc", str% "_gdo_noop", str% "wchar_t", str% "_gdo_mbstowcs", str% "wcs",
   str% "mbstowcs_s", str% "malloc", str% "LoadLibraryExW", str% "GetModuleFileNameA"]

theorem allNames_apart : (allNames.all fun a => allNames.all fun b => a == b || apart (form a) (form b)) = true := by decide +kernel

theorem gdo_not_name : str% "gdo" ∉ allNames := by decide +kernel

/-- All names of the code are in the list. -/
def Covered (p : List Top) : Prop := ∀ ts, progToks p = some ts → ∀ w ∈ wordsOf ts, w ∈ allNames

instance (p : List Top) : Decidable (Covered p) :=
  match h : progToks p with
  | none => isTrue fun ts e => by rw [h] at e; cases e
  | some ts => decidable_of_iff (∀ w ∈ wordsOf ts, w ∈ allNames) ⟨fun hh ts' e => by rw [h] at e; cases e; exact hh, fun hh => hh ts h⟩

theorem wordsOf_append (a b : List Cc.Item) : wordsOf (a ++ b) = wordsOf a ++ wordsOf b := by
  induction a with
  | nil => rfl
  | cons t r ih => cases t <;> simp [wordsOf, ih]

theorem Covered.append {a b : List Top} (ha : Covered a) (hb : Covered b) : Covered (a ++ b) := by
  intro ts e w hw
  rw [progToks_append] at e
  cases h1 : progToks a with
  | none => rw [h1] at e; cases e
  | some x =>
    cases h2 : progToks b with
    | none => rw [h1, h2] at e; cases e
    | some y =>
      rw [h1, h2] at e
      cases e
      rw [wordsOf_append, List.mem_append] at hw
      exact hw.elim (ha x h1 w) (hb y h2 w)

theorem covered_p1 : ∀ a, Covered (commonPart1 a) := by decide +kernel

theorem covered_p2 : ∀ a b d, Covered (commonPart2 a b d) := by decide +kernel

theorem covered_p3 : ∀ a, Covered (commonPart3 a) := by decide +kernel

theorem covered_p4 : ∀ a b d, Covered (commonPart4 a b d) := by decide +kernel

theorem covered_c1 : ∀ a b, Covered (cPart1 a b) := by decide +kernel

theorem covered_c2 : ∀ a b, Covered (cPart2 a b) := by decide +kernel

theorem covered_c3 : ∀ a b, Covered (cPart3 a b) := by decide +kernel

theorem covered_c4 : ∀ a b, Covered (cPart4 a b) := by decide +kernel

theorem covered_c5 : ∀ a b, Covered (cPart5 a b) := by decide +kernel

theorem covered_c6 : ∀ a b, Covered (cPart6 a b) := by decide +kernel

theorem covered_c7 : ∀ a b, Covered (cPart7 a b) := by decide +kernel

theorem covered_c8 : ∀ a b d, Covered (cPart8 a b d) := by decide +kernel

theorem covered_c9 : ∀ a, Covered (cPart9 a) := by decide +kernel

theorem covered_c10 : ∀ a b d e, Covered (cPart10 a b d e) := by decide +kernel

theorem covered_c11 : ∀ a b d, Covered (cPart11 a b d) := by decide +kernel

theorem covered_c12 : ∀ a, Covered (cPart12 a) := by decide +kernel

theorem covered_c13 : ∀ a b, Covered (cPart13 a b) := by decide +kernel

theorem covered_c14 : ∀ a, Covered (cPart14 a) := by decide +kernel

theorem covered_c15 : Covered cPart15 := by decide +kernel

theorem covered_c16 : ∀ a b d e f g h, Covered (cPart16 a b d e f g h) := by decide +kernel

theorem covered_c17 : Covered cPart17 := by decide +kernel

theorem covered_c18 : ∀ a b d, Covered (cPart18 a b d) := by decide +kernel

theorem covered_program (names : ParamNames) (D : Str → Bool) : Covered (program names D) := by
  unfold program
  refine Covered.append ?_ ?_
  · unfold commonProg
    exact (((covered_p1 _).append (covered_p2 _ _ _)).append (covered_p3 _)).append (covered_p4 _ _ _)
  · unfold cProg
    refine Covered.append ?_ (Covered.append ?_ (covered_c17.append (covered_c18 _ _ _)))
    · exact (((((((((((((covered_c1 _ _).append (covered_c2 _ _)).append (covered_c3 _ _)).append (covered_c4 _ _)).append (covered_c5 _ _)).append (covered_c6 _ _)).append (covered_c7 _ _)).append (covered_c8 _ _ _)).append (covered_c9 _)).append (covered_c10 _ _ _ _)).append (covered_c11 _ _ _)).append (covered_c12 _)).append (covered_c13 _ _)).append (covered_c14 _)
    · split
      · exact fun ts e w hw => by cases e; cases hw
      · exact covered_c15.append (covered_c16 _ _ _ _ _ _ _)

end Gdo.Cc
