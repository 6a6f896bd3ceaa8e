{
 "claims": [
  {
   "property": "C01",
   "status": "proved",
   "theorems": [
    "Gdo.Props.C01_progress",
    "Gdo.Props.C01_silent",
    "Gdo.Props.C01_steps_suffice",
    "Gdo.Props.C01_tokens_are_input"
   ],
   "note": "Every state of the scanner has a match for every input, scanning ends in end of input or a reported error, never in flex's default rule, and tokens are disjoint parts of the input in order."
  },
  {
   "property": "C02",
   "status": "proved",
   "theorems": [
    "Gdo.Props.C02_source_read",
    "Gdo.Props.C02_gaps_irrelevant"
   ],
   "note": "Scanner reads exactly the specified tokens of every text built from white space, comments, directives, option lines, words and punctuation; inserting gaps before a token changes nothing."
  },
  {
   "property": "C03",
   "status": "partial",
   "theorems": [
    "Gdo.Props.C03_comment_ends_partial",
    "Gdo.Props.C03_violated",
    "Gdo.Props.C03_split_end",
    "Gdo.Props.C03_split_begin",
    "Gdo.Props.C03_split_line",
    "Gdo.Props.C03_split_comment"
   ],
   "note": "Violated when a continued comment line is followed by a blank line (witness); proved for all logical lines whose last line is not blank. C03_split_end, C03_split_begin, C03_split_line, C03_split_comment: the comment marks split over continued lines."
  },
  {
   "property": "C04",
   "status": "partial",
   "theorems": [
    "Gdo.Props.C04_option_line_partial",
    "Gdo.Props.C04_violated",
    "Gdo.Props.C04_violated_continuation"
   ],
   "note": "Violated for an empty %option line and for a backslash directly after a word (witnesses); proved for all other option lines."
  },
  {
   "property": "C05",
   "status": "proved",
   "theorems": [
    "Gdo.Props.C05_type_definitions_skipped"
   ],
   "note": "Proved for all balanced bodies at every statement position."
  },
  {
   "property": "C06",
   "status": "proved",
   "theorems": [
    "Gdo.Props.C06_statements",
    "Gdo.Props.C06_last_semicolon",
    "Gdo.Props.C06_braces_reported",
    "Gdo.Props.C06_text"
   ],
   "note": "Proved on token streams and on texts, with and without option reading, with and without the last semicolon."
  },
  {
   "property": "C07",
   "status": "proved",
   "theorems": [
    "Gdo.C07_parser_memory_safe"
   ],
   "note": "The parser model has an explicit undefined behaviour outcome; it is never reached."
  },
  {
   "property": "C08",
   "status": "partial",
   "theorems": [
    "Gdo.C08_function_read_back",
    "Gdo.C08_function_shapes_partial",
    "Gdo.C08_violated",
    "Gdo.C08_violated_silently"
   ],
   "note": "Violated for types of several words in the parenthesized shapes (witnesses); proved for the plain shape with all types and for the other shapes with one-word or pointer types."
  },
  {
   "property": "C09",
   "status": "partial",
   "theorems": [
    "Gdo.C09_function_pointer_variable_partial",
    "Gdo.C09_violated",
    "Gdo.C09_violated_silently"
   ],
   "note": "Violated for types of several words (witnesses); proved for one-word or pointer types."
  },
  {
   "property": "C10",
   "status": "proved",
   "theorems": [
    "Gdo.C10_objects_read_back"
   ],
   "note": "Proved for all variables and arrays."
  },
  {
   "property": "C11",
   "status": "proved",
   "theorems": [
    "Gdo.C11_split_at_top_level_commas"
   ],
   "note": "Proved: parameters are the segments between commas outside of parentheses."
  },
  {
   "property": "C12",
   "status": "partial",
   "theorems": [
    "Gdo.C12_created_names_partial",
    "Gdo.C12_creation_succeeds",
    "Gdo.C12_variadic_args",
    "Gdo.C12_violated",
    "Gdo.C12_no_parameters"
   ],
   "note": "Violated for variadic functions (the call argument list contains three dots); proved otherwise."
  },
  {
   "property": "C13",
   "status": "partial",
   "theorems": [
    "Gdo.C13_names_in_order_partial",
    "Gdo.C13_names_are_tokens",
    "Gdo.C13_nameless_reported_partial",
    "Gdo.C13_violated"
   ],
   "note": "Violated for nameless parameters with types of several words (the last word is taken for the name); proved for named parameters."
  },
  {
   "property": "C14",
   "status": "partial",
   "theorems": [
    "Gdo.Ast.C14_no_duplicates_ast_partial",
    "Gdo.Ast.C14_violated_ast",
    "Gdo.C14_no_duplicates_partial",
    "Gdo.C14_duplicates_reported",
    "Gdo.Props.C14_text"
   ],
   "note": "Text input proved for all filters; Clang AST input proved with -S only. Violated for AST input with -ast-all-symbols or -P: there is no duplicate check (witness)."
  },
  {
   "property": "C15",
   "status": "proved",
   "theorems": [
    "Gdo.C15_filters_select",
    "Gdo.C15_errors_unchanged",
    "Gdo.Props.C15_text"
   ],
   "note": "Proved for text input."
  },
  {
   "property": "C16",
   "status": "partial",
   "theorems": [
    "Gdo.Ast.C16_filters_select_partial",
    "Gdo.Ast.C16_violated"
   ],
   "note": "Proved for all dumps without repeated declarations where no declared listed symbol also begins with a prefix; violated otherwise: such a symbol is reported as not found (witness)."
  },
  {
   "property": "C17",
   "status": "partial",
   "theorems": [
    "Gdo.Props.C17_other_tokens_kept",
    "Gdo.Props.C17_doubled_removed_partial",
    "Gdo.Props.C17_violated",
    "Gdo.Props.C17_violated_double"
   ],
   "note": "Only parentheses are removed, all other tokens stay (all inputs). Doubled parentheses are removed for forests of the stated shape; violated in general: parentheses that do not enclose the same text are removed, which breaks the balance (witnesses)."
  },
  {
   "property": "C18",
   "status": "proved",
   "theorems": [
    "Gdo.Props.C18_all_formatted",
    "Gdo.Props.C18_terminates",
    "Gdo.Props.C18_tokens_kept",
    "Gdo.Props.C18_spaces_only",
    "Gdo.Props.C18_no_unwanted",
    "Gdo.Props.C18_idempotent"
   ],
   "note": "Proved for all texts: terminates, keeps the tokens, deletes blanks only, leaves none of the unwanted blanks, is idempotent."
  },
  {
   "property": "C19",
   "status": "proved",
   "theorems": [
    "Gdo.Props.C19_array_text",
    "Gdo.Props.C19_fptr_text",
    "Gdo.Props.C19_typedefs"
   ],
   "note": "Proved for all objects as the parser reads and formats them."
  },
  {
   "property": "C20",
   "status": "partial",
   "theorems": [
    "Gdo.Tpl.C20_line_counts",
    "Gdo.Tpl.C20_entries_consistent",
    "Gdo.Tpl.C20_text_partial",
    "Gdo.Tpl.C20_text_lf_partial",
    "Gdo.Tpl.C20_violated_mark_after_cr",
    "Gdo.Tpl.C20_reads",
    "Gdo.Tpl.C20_loaded"
   ],
   "note": "Line counts and flags proved for all files; the text comes back for all files without a continuation mark between CR and LF; violated there: two files give the same entries (witness)."
  },
  {
   "property": "C21",
   "status": "partial",
   "theorems": [
    "Gdo.Tpl.C21_partial",
    "Gdo.Tpl.C21_violated_extra_entry",
    "Gdo.Tpl.C21_dump_is_source_partial"
   ],
   "note": "Violated for every template list: an empty entry is added at the end and, with -line, a second #line entry at the start. The exact result is proved, and that the dumped file is the source text."
  },
  {
   "property": "C22",
   "status": "partial",
   "theorems": [
    "Gdo.Tpl.C22_partial",
    "Gdo.Tpl.C22_ascii_partial",
    "Gdo.Tpl.C22_violated_final_newline",
    "Gdo.Tpl.C22_violated_hex_run",
    "Gdo.Tpl.C22_violated_mark_at_end",
    "Gdo.Tpl.C22_violated_nul"
   ],
   "note": "Proved for bytes without NUL where no \\x sequence is followed by a hexadecimal digit (all ASCII templates), up to the empty entry after the final newline; violated otherwise (witnesses)."
  },
  {
   "property": "C23",
   "status": "partial",
   "theorems": [
    "Gdo.Sub.C23_functions_partial",
    "Gdo.Sub.C23_objects_partial",
    "Gdo.Sub.C23_symbols_partial",
    "Gdo.Sub.C23_plain_partial",
    "Gdo.Sub.C23_violated_data",
    "Gdo.Sub.C23_violated_between"
   ],
   "note": "Proved for entries of plain characters and separated keywords and data without percent signs, for functions, objects and symbols; violated for data that contain keywords and for a keyword name between two keywords (witnesses)."
  },
  {
   "property": "C24",
   "status": "proved",
   "theorems": [
    "Gdo.Sub.C24_once",
    "Gdo.Sub.C24_functions_in_order"
   ],
   "note": "Proved for every entry and every list: number of texts, order, and no mixing of keyword classes."
  },
  {
   "property": "C25",
   "status": "partial",
   "theorems": [
    "Gdo.Sub.C25_partial",
    "Gdo.Sub.C25_violated_dropped",
    "Gdo.Sub.C25_violated_newline",
    "Gdo.Props.C25_text_partial"
   ],
   "note": "Proved if no entry is dropped and no data have newlines; violated otherwise (witnesses)."
  },
  {
   "property": "C26",
   "status": "partial",
   "theorems": [
    "Gdo.Sub.C26_custom_partial",
    "Gdo.Sub.C26_builtin_partial",
    "Gdo.Sub.C26_violated_dropped",
    "Gdo.Sub.C26_violated_dropped_all",
    "Gdo.Sub.C26_initial",
    "Gdo.Sub.C26_violated_loaded"
   ],
   "note": "Proved for custom and built-in templates if no entry is dropped, no data have newlines and the prefix does not begin with a digit; violated for dropped entries and for every template loaded with -templates-path (witnesses)."
  },
  {
   "property": "C27",
   "status": "proved",
   "theorems": [
    "Gdo.Sub.C27_sections",
    "Gdo.Sub.C27_lists"
   ],
   "note": "Proved for all lists of entries and all arrangements of markers; an open section goes on in the next list."
  },
  {
   "property": "C28",
   "status": "partial",
   "theorems": [
    "Gdo.Sub.C28_partial",
    "Gdo.Sub.C28_custom_partial",
    "Gdo.Sub.C28_violated",
    "Gdo.Props.C28_text",
    "Gdo.Props.C28_custom_text"
   ],
   "note": "Proved if no data have two percent signs in a row; violated by Clang AST input that names a header %%obj_type%%.h (witness: it diverges for every number of iterations)."
  },
  {
   "property": "C29",
   "status": "partial",
   "theorems": [
    "Gdo.Pfx.C29_pieces",
    "Gdo.Pfx.C29_partial",
    "Gdo.Pfx.C29_lines_partial",
    "Gdo.Pfx.C29_written_partial",
    "Gdo.Pfx.C29_default",
    "Gdo.Pfx.C29_violated_pair",
    "Gdo.Pfx.C29_violated_digit",
    "Gdo.Pfx.C29_violated_empty"
   ],
   "note": "Proved for every text where no two words gdo are one character apart, and every non-empty prefix that does not begin with a digit; violated otherwise (witnesses)."
  },
  {
   "property": "C30",
   "status": "proved",
   "theorems": [
    "Gdo.Pfx.C30_upper",
    "Gdo.Pfx.C30_lower",
    "Gdo.Pfx.C30_length"
   ],
   "note": "Proved for all strings."
  },
  {
   "property": "C31",
   "status": "partial",
   "theorems": [
    "Gdo.Common.C31_safe",
    "Gdo.Common.C31_prefix",
    "Gdo.Common.C31_longest_partial",
    "Gdo.Common.C31_violated_single"
   ],
   "note": "Proved for two or more symbols; violated for every single symbol: the code gives the empty prefix."
  },
  {
   "property": "C32",
   "status": "proved",
   "theorems": [
    "Gdo.Rt.C32_known",
    "Gdo.Rt.C32_asked",
    "Gdo.Rt.C32_unknown",
    "Gdo.Rt.C32_empty",
    "Gdo.Rt.C32_safe"
   ],
   "note": "C32_known, C32_asked: a symbol of the list is found and its name is the one looked up with dlsym; C32_unknown: other names load nothing and are an error; C32_empty: NULL and empty names; C32_safe: no access behind the end of the name as long as the common prefix is one of all symbols"
  },
  {
   "property": "C33",
   "status": "proved",
   "theorems": [
    "Gdo.Gen.C33_untouched",
    "Gdo.Gen.C33_stdout",
    "Gdo.Gen.C33_force"
   ],
   "note": "Proved for all file systems, output names and settings; with -force only the output files change."
  },
  {
   "property": "C34",
   "status": "partial",
   "theorems": [
    "Gdo.Gen.C34_partial",
    "Gdo.Gen.C34_violated"
   ],
   "note": "Proved if the body does not exist; violated otherwise: the header is written before the body is opened (witness)."
  },
  {
   "property": "C35",
   "status": "partial",
   "theorems": [
    "Gdo.Gen.C35_safe_partial",
    "Gdo.Gen.C35_partial",
    "Gdo.Gen.C35_violated_license",
    "Gdo.Gen.C35_violated_dangling"
   ],
   "note": "Proved for all list contents except the license and filename macro lists: those are always the built-in ones, or released storage with separate output (witnesses)."
  },
  {
   "property": "C36",
   "status": "partial",
   "theorems": [
    "Gdo.Gen.C36_partial",
    "Gdo.Gen.C36_denotes",
    "Gdo.Gen.C36_violated",
    "Gdo.Gen.C36_violated_api",
    "Gdo.Gen.C36_violated_api_line",
    "Gdo.Gen.C36_violated_wide",
    "Gdo.Gen.C36_violated_escape"
   ],
   "note": "Proved for all names that do not begin with n, e or a; violated: such names without a mode are lost, api:x and every api: form with a CR or LF is lost, wide literals are quoted again, backslashes are not escaped (witnesses)."
  },
  {
   "property": "C37",
   "status": "proved",
   "theorems": [
    "Gdo.Opt.C37_spellings",
    "Gdo.Opt.C37_effect"
   ],
   "note": "Proved for all argument vectors, Linux and Windows configuration."
  },
  {
   "property": "C38",
   "status": "partial",
   "theorems": [
    "Gdo.Opt.C38_safe",
    "Gdo.Opt.C38_effect",
    "Gdo.Opt.C38_complete",
    "Gdo.Opt.C38_unknown",
    "Gdo.Opt.C38_missing",
    "Gdo.Opt.C38_violated_second"
   ],
   "note": "Termination, safety, exactness of the consumed arguments, unknown options and missing arguments proved for all argument vectors; violated for a second input file, which is ignored with a warning."
  },
  {
   "property": "C39",
   "status": "proved",
   "theorems": [
    "Gdo.Opt.C39_entries",
    "Gdo.Opt.C39_as_arguments",
    "Gdo.Opt.C39_unknown",
    "Gdo.Opt.C39_override"
   ],
   "note": "Proved for all option lists: the entries have the effect of the same arguments appended to the command line."
  },
  {
   "property": "C40",
   "status": "partial",
   "theorems": [
    "Gdo.Gen.C40_define",
    "Gdo.Gen.C40_define_plain",
    "Gdo.Gen.C40_violated",
    "Gdo.Gen.C40_include",
    "Gdo.Gen.C40_written",
    "Gdo.Gen.C40_standard"
   ],
   "note": "Definitions with a name and all includes proved for all strings; violated for definitions without a name, which are ignored silently."
  },
  {
   "property": "C41",
   "status": "proved",
   "theorems": [
    "Gdo.Gen.C41_name",
    "Gdo.Gen.C41_define",
    "Gdo.Gen.C41_guard",
    "Gdo.Gen.C41_pragma"
   ],
   "note": "Proved for all settings whose parts are balanced themselves; definitions added by -D keep the balance."
  },
  {
   "property": "C42",
   "status": "proved",
   "theorems": [
    "Gdo.Rt.C42_null",
    "Gdo.Rt.C42_origin"
   ],
   "note": "invariant over all call sequences and all loader behaviours (C42_null); C42_origin: each pointer is one the loader gave for this symbol of this library"
  },
  {
   "property": "C43",
   "status": "proved",
   "theorems": [
    "Gdo.Rt.C43_use",
    "Gdo.Rt.C43_count",
    "Gdo.Rt.C43_finish",
    "Gdo.Rt.C43_autorelease",
    "Gdo.Rt.C43_registered_once",
    "Gdo.Rt.C43_enabled",
    "Gdo.Rt.C43_opened"
   ],
   "note": "C43_use, C43_count, C43_finish, C43_autorelease, C43_registered_once over all call sequences, including failing dlclose and forced release"
  },
  {
   "property": "C44",
   "status": "proved",
   "theorems": [
    "Gdo.Rt.C44_queries",
    "Gdo.Rt.C44_iff",
    "Gdo.Rt.C44_error",
    "Gdo.Rt.C44_names"
   ],
   "note": "C44_iff, C44_error, C44_names"
  },
  {
   "property": "C45",
   "status": "proved",
   "theorems": [
    "Gdo.Rt.C45_load",
    "Gdo.Rt.C45_noname",
    "Gdo.Rt.C45_free",
    "Gdo.Rt.C45_symbols",
    "Gdo.Rt.C45_symbol",
    "Gdo.Rt.C45_symbol_name",
    "Gdo.Rt.C45_unknown"
   ],
   "note": "every refused call leaves handle and pointers unchanged; freeing without a library is documented to return true"
  },
  {
   "property": "C46",
   "status": "partial",
   "theorems": [
    "Gdo.Rt.C46_partial",
    "Gdo.Rt.C46_nonempty",
    "Gdo.Rt.C46_violated_path",
    "Gdo.Rt.C46_violated",
    "Gdo.Rt.C46_violated_null"
   ],
   "note": "violated: C46_violated, C46_violated_path (a path of 8192 characters or more), C46_violated_null (dlsym returns NULL without a message). C46_partial: holds for every call if the loader has a message for each failure and paths fit into the buffer"
  },
  {
   "property": "C47",
   "status": "proved",
   "theorems": [
    "Gdo.Cxx.C47_cxx",
    "Gdo.Rt.C47_nonnull",
    "Gdo.Rt.C47_wrapper"
   ],
   "note": "C47_nonnull, C47_wrapper (C code, library names without a percent sign, see C63), C47_cxx (C++ code)"
  },
  {
   "property": "C48",
   "status": "partial",
   "theorems": [
    "Gdo.Cxx.C48_cxx_violated",
    "Gdo.Cxx.C48_cxx_partial",
    "Gdo.Rt.C48_violated",
    "Gdo.Rt.C48_partial"
   ],
   "note": "violated whenever the library cannot be opened (C48_violated, C48_cxx_violated: all loaders, all names). C48_partial, C48_cxx_partial: the loader's reason is shown when the library is open but the symbol is missing"
  },
  {
   "property": "C49",
   "status": "partial",
   "theorems": [
    "Gdo.Min.C49_success",
    "Gdo.Min.C49_symbol",
    "Gdo.Min.C49_reason",
    "Gdo.Min.C49_text",
    "Gdo.Min.C49_exception",
    "Gdo.Min.C49_partial",
    "Gdo.Min.C49_violated",
    "Gdo.Min.C49_violated_loaded",
    "Gdo.Min.C49_loaded"
   ],
   "note": "C49_success, C49_symbol, C49_reason, C49_text, C49_exception, C49_loaded hold; violated: C49_violated, C49_violated_loaded; C49_partial: nothing loaded before the call"
  },
  {
   "property": "C50",
   "status": "partial",
   "theorems": [
    "Gdo.Min.C50_use",
    "Gdo.Min.C50_violated",
    "Gdo.Min.C50_partial"
   ],
   "note": "violated: C50_violated (loading twice); C50_use: no handle is used or closed unless open; C50_partial: no loading while a library is loaded"
  },
  {
   "property": "C51",
   "status": "partial",
   "theorems": [
    "Gdo.Cxx.C51_null",
    "Gdo.Cxx.C51_origin",
    "Gdo.Cxx.C51_handles",
    "Gdo.Cxx.C51_finish",
    "Gdo.Cxx.C51_queries",
    "Gdo.Cxx.C51_path",
    "Gdo.Cxx.C51_violated",
    "Gdo.Cxx.C51_violated_cached",
    "Gdo.Cxx.C51_shared",
    "Gdo.Cxx.C51_kept",
    "Gdo.Cxx.C51_partial"
   ],
   "note": "C51_null, C51_origin, C51_handles, C51_finish, C51_queries for any number of objects; violated for the library path: C51_violated, C51_violated_cached; C51_partial: one object at a time"
  },
  {
   "property": "C52",
   "status": "partial",
   "theorems": [
    "Gdo.Plug.C52_nothing",
    "Gdo.Plug.C52_entries",
    "Gdo.Plug.C52_release",
    "Gdo.Plug.C52_answers",
    "Gdo.Plug.C52_partial",
    "Gdo.Plug.C52_violated",
    "Gdo.Plug.C52_violated_list"
   ],
   "note": "C52_entries, C52_release for all runs that return; violated when memory is exhausted: C52_violated, C52_violated_list; C52_partial: allocations succeed; C52_answers: what release and the slots say is what dlclose and dlsym answered"
  },
  {
   "property": "C53",
   "status": "partial",
   "theorems": [
    "Gdo.Thr.C53_partial",
    "Gdo.Thr.C53_violated",
    "Gdo.Thr.C53_violated_null",
    "Gdo.Thr.C53_violated_close",
    "Gdo.Thr.C53_partial_locked",
    "Gdo.Thr.C53_alone",
    "Gdo.Thr.C53_answers"
   ],
   "note": "violated: C53_violated (opened twice), C53_violated_null (call through NULL), C53_violated_close (closed twice); C53_partial: all schedules in which no loader call fails; C53_partial_locked: all loaders, one thread inside at a time; C53_alone: refines the sequential model; C53_answers: in every step what a thread keeps is what the loader answered"
  },
  {
   "property": "C54",
   "status": "proved",
   "theorems": [
    "Gdo.C54_exactly_declarations_accepted",
    "Gdo.C54_reading_is_a_declaration"
   ],
   "note": "Accepted token lists are exactly the printed declarations."
  },
  {
   "property": "C55",
   "status": "partial",
   "theorems": [
    "Gdo.Props.C55_violated",
    "Gdo.Props.C55_declarations_kept_partial"
   ],
   "note": "Violated: declarations that begin with struct, union or enum are dropped silently (witness); proved for all other declarations."
  },
  {
   "property": "C56",
   "status": "partial",
   "theorems": [
    "Gdo.Props.C56_directives_skipped_partial",
    "Gdo.Props.C56_violated",
    "Gdo.Props.C56_violated_string"
   ],
   "note": "Violated: comments over several lines inside of a directive and comment marks in string literals (witnesses); proved for all other directives."
  },
  {
   "property": "C57",
   "status": "partial",
   "theorems": [
    "Gdo.Ast.C57_declarations_read_partial",
    "Gdo.Ast.C57_violated_return",
    "Gdo.Ast.C57_violated_parameter",
    "Gdo.Props.C57_only_at_the_front"
   ],
   "note": "Proved for all dumps; the type is the text in front of the first parenthesis and names go into the first (*). Violated for functions that return function pointers and parameters like void (**)(int) (witnesses)."
  },
  {
   "property": "C58",
   "status": "partial",
   "theorems": [
    "Gdo.Ast.C58_violated"
   ],
   "note": "Violated for every dump with a variadic function: the parameter list never has the three dots."
  },
  {
   "property": "C59",
   "status": "partial",
   "theorems": [
    "Gdo.Ast.C59_listed_symbols_read_partial",
    "Gdo.Ast.C59_violated"
   ],
   "note": "Proved if every function type is printed with its parameter list; violated for functions declared with a type name (witness)."
  },
  {
   "property": "C60",
   "status": "partial",
   "theorems": [
    "Gdo.Opt.C60_partial",
    "Gdo.Opt.C60_violated"
   ],
   "note": "Proved for one dash; violated for every option with two dashes: the message shows the first letter of the option in place of the second dash."
  },
  {
   "property": "C61",
   "status": "partial",
   "theorems": [
    "Gdo.Gen.C61_partial",
    "Gdo.Gen.C61_contents",
    "Gdo.Gen.C61_violated"
   ],
   "note": "Violated: existing files are replaced without a question (witness); proved that no other files change and that the built-in texts are written."
  },
  {
   "property": "C62",
   "status": "partial",
   "theorems": [
    "Gdo.Gen.C62_first",
    "Gdo.Gen.C62_last_partial",
    "Gdo.Gen.C62_custom"
   ],
   "note": "The first directive proved for all settings; the last one if no entry is dropped and no data have newlines (see C25)."
  },
  {
   "property": "C63",
   "status": "partial",
   "theorems": [
    "Gdo.Cxx.C63_cxx",
    "Gdo.Rt.C63_violated_ub",
    "Gdo.Rt.C63_violated_s",
    "Gdo.Rt.C63_violated_percent",
    "Gdo.Rt.C63_partial"
   ],
   "note": "violated: C63_violated_ub, C63_violated_s, C63_violated_percent; C63_partial: names without a percent sign; C63_cxx: holds in the C++ code"
  },
  {
   "property": "C64",
   "status": "proved",
   "theorems": [
    "Gdo.Rt.C64_path",
    "Gdo.Rt.C64_none"
   ],
   "note": "C64_path, C64_none over all call sequences"
  },
  {
   "property": "C65",
   "status": "partial",
   "theorems": [
    "Gdo.Cxx.C65_partial",
    "Gdo.Cxx.C65_violated"
   ],
   "note": "violated: C65_violated; C65_partial"
  },
  {
   "property": "C66",
   "status": "partial",
   "theorems": [
    "Gdo.Cxx.C66_partial",
    "Gdo.Cxx.C66_violated",
    "Gdo.Cxx.C66_nonempty"
   ],
   "note": "violated: C66_violated; C66_partial: the loader gives a message for its failures"
  },
  {
   "property": "C67",
   "status": "proved",
   "theorems": [
    "Gdo.Cxx.C67_all",
    "Gdo.Cxx.C67_symbol",
    "Gdo.Cxx.C67_opened",
    "Gdo.Cxx.C67_constructed",
    "Gdo.Cxx.C67_refused",
    "Gdo.Cxx.C67_path"
   ],
   "note": "C67_all, C67_symbol, C67_refused, C67_path (path found by dladdr)"
  },
  {
   "property": "C68",
   "status": "partial",
   "theorems": [
    "Gdo.Props.C68_header_read_partial",
    "Gdo.Props.C68_header_read_create_partial"
   ],
   "note": "C68_header_read_partial and C68_header_read_create_partial compose scanner, statements, parentheses, parser, parameters, typedefs and formatting for -param=skip and -param=create. Partial: declarations of the shapes that are read correctly (C08, C09), parentheses as in C17, no variadic functions with create, no filters (those: C15)."
  },
  {
   "property": "C69",
   "status": "partial",
   "theorems": [
    "Gdo.Procmap.C69_exact",
    "Gdo.Procmap.C69_sound",
    "Gdo.Procmap.C69_partial",
    "Gdo.Procmap.C69_violated"
   ],
   "note": "violated: offset and device numbers are hexadecimal but read as decimal, the path is then not found (C69_violated); C69_partial: maps whose numbers have decimal digits only; C69_sound: a path that is found is that of the mapping, for all maps; C69_exact: exactly when it is found"
  },
  {
   "property": "C70",
   "status": "proved",
   "theorems": [
    "Gdo.Aix.C70_path",
    "Gdo.Aix.C70_found",
    "Gdo.Aix.C70_reported"
   ],
   "note": ""
  },
  {
   "property": "C71",
   "status": "proved",
   "theorems": [
    "Gdo.Win.C71_null",
    "Gdo.Win.C71_origin",
    "Gdo.Win.C71_handles",
    "Gdo.Win.C71_finish",
    "Gdo.Win.C71_autorelease",
    "Gdo.Win.C71_registered_once",
    "Gdo.Win.C71_enabled"
   ],
   "note": ""
  },
  {
   "property": "C72",
   "status": "proved",
   "theorems": [
    "Gdo.Win.C72_queries",
    "Gdo.Win.C72_iff",
    "Gdo.Win.C72_symbol",
    "Gdo.Win.C72_name",
    "Gdo.Win.C72_refused"
   ],
   "note": ""
  },
  {
   "property": "C73",
   "status": "proved",
   "theorems": [
    "Gdo.Win.C73_backslashes",
    "Gdo.Win.C73_opened",
    "Gdo.Win.C73_called"
   ],
   "note": ""
  },
  {
   "property": "C74",
   "status": "proved",
   "theorems": [
    "Gdo.Win.C74_path",
    "Gdo.Win.C74_found",
    "Gdo.Win.C74_none"
   ],
   "note": ""
  },
  {
   "property": "C75",
   "status": "partial",
   "theorems": [
    "Gdo.Win.C75_told",
    "Gdo.Win.C75_open",
    "Gdo.Win.C75_open_converted",
    "Gdo.Win.C75_symbol",
    "Gdo.Win.C75_all",
    "Gdo.Win.C75_free",
    "Gdo.Win.C75_path",
    "Gdo.Win.C75_nolib",
    "Gdo.Win.C75_refused",
    "Gdo.Win.C75_violated_loaded",
    "Gdo.Win.C75_violated_atexit",
    "Gdo.Win.C75_violated_convert",
    "Gdo.Win.C75_partial",
    "Gdo.Win.C75_fits"
   ],
   "note": "exact message of each kind of failure (C75_open, C75_open_converted, C75_symbol, C75_all, C75_free, C75_path, C75_nolib, C75_refused); violated: code 0 when a library is loaded already or atexit fails, and the failure of a file name conversion is overwritten (C75_violated_*); C75_partial: the code is not 0 in all other cases, if the system gives one"
  },
  {
   "property": "C76",
   "status": "proved",
   "theorems": [
    "Gdo.Win.C76_success",
    "Gdo.Win.C76_again",
    "Gdo.Win.C76_current",
    "Gdo.Win.C76_after_success"
   ],
   "note": ""
  },
  {
   "property": "C77",
   "status": "partial",
   "theorems": [
    "Gdo.Win.C77_nonnull",
    "Gdo.Win.C77_wrapper",
    "Gdo.Win.C77_violated",
    "Gdo.Win.C77_partial"
   ],
   "note": "C77_nonnull and C77_wrapper hold for all states (library name without percent sign; in a message box the names must fit); violated: when the library cannot be opened the reason is replaced by `no library was loaded` (C77_violated); C77_partial: the reason is shown when the symbol is missing"
  },
  {
   "property": "C78",
   "status": "proved",
   "theorems": [
    "Gdo.Gen.C78_extension",
    "Gdo.Gen.C78_no_extension",
    "Gdo.Gen.C78_kinds",
    "Gdo.Gen.C78_pair",
    "Gdo.Gen.C78_single",
    "Gdo.Gen.C78_written",
    "Gdo.Gen.C78_include"
   ],
   "note": "Paths in POSIX form; the run with both files is for built-in templates (C35 shows what happens with others)."
  },
  {
   "property": "C79",
   "status": "proved",
   "theorems": [
    "Gdo.Gen.C79_separate",
    "Gdo.Gen.C79_variadic",
    "Gdo.Gen.C79_common",
    "Gdo.Gen.C79_written"
   ],
   "note": "Symbol names and the default library without line ends."
  },
  {
   "property": "C80",
   "status": "partial",
   "theorems": [
    "Gdo.Props.C80_read_back_partial",
    "Gdo.Props.C80_same_symbols_partial",
    "Gdo.Props.C80_count_partial",
    "Gdo.Props.C80_violated"
   ],
   "note": "Partial: for the headers of C68 (functions, function pointers, arrays, objects) with parameter lists without doubled parentheses and -param=skip. Reading the listing again gives the same functions and objects (C80_read_back_partial, C80_same_symbols_partial without function pointers and arrays). C80_violated: the listed typedefs are skipped on reading."
  },
  {
   "property": "C82",
   "status": "partial",
   "theorems": [
    "Gdo.Props.C82_reported",
    "Gdo.Props.C82_located",
    "Gdo.Props.C82_dump",
    "Gdo.Props.C82_first",
    "Gdo.Props.C82_text_partial",
    "Gdo.Props.C82_hex",
    "Gdo.Props.C82_distinct",
    "Gdo.Props.C82_fits",
    "Gdo.Props.C82_violated"
   ],
   "note": "Not covered by the theorem about the first offending character: the characters # and % (they begin a directive or an option line at some places) and the bytes that begin a byte order mark or a colour code. The message is undefined behaviour for bytes above 127 where char is signed (C82_violated)."
  },
  {
   "property": "C81",
   "status": "partial",
   "theorems": [
    "Gdo.Program.C81_status",
    "Gdo.Program.C81_existing",
    "Gdo.Program.C81_only_output",
    "Gdo.Program.C81_nothing",
    "Gdo.Program.C81_print",
    "Gdo.Program.C81_safe_partial",
    "Gdo.Program.C81_ends_partial",
    "Gdo.Program.C81_success",
    "Gdo.Program.C81_help",
    "Gdo.Program.C81_unknown",
    "Gdo.Program.C81_violated",
    "Gdo.Program.C81_violated_terminate"
   ],
   "note": "C81_status, C81_existing, C81_only_output, C81_nothing, C81_print, C81_success, C81_help, C81_unknown hold for all argument lists and file systems. C81_safe_partial excludes bytes above 127 with signed char (C82) and -separate with -templates-path (C35). C81_ends_partial excludes AST input (C28) and -templates-path. Violated: a failing template with -force loses the old output; fs::remove throws an exception that main does not catch."
  },
  {
   "property": "C83",
   "status": "partial",
   "theorems": [
    "Gdo.Program.C83_missing",
    "Gdo.Program.C83_program",
    "Gdo.Program.C83_violated"
   ],
   "note": "C83_missing and C83_program for all text inputs. Violated for AST input with -P and -S (C16)."
  },
  {
   "property": "C84",
   "status": "partial",
   "theorems": [
    "Gdo.Props.C84_characters_partial",
    "Gdo.Props.C84_violated",
    "Gdo.Props.C84_plain",
    "Gdo.Props.C84_one_line"
   ],
   "note": "Characters for every text file; C84_plain, C84_one_line connect this with the template theorems. Violated: numbers and keywords are accepted as names."
  },
  {
   "property": "C85",
   "status": "partial",
   "theorems": [
    "Gdo.Program.C85_unreadable",
    "Gdo.Program.C85_stdin",
    "Gdo.Program.C85_stdin_once",
    "Gdo.Program.C85_scan_partial",
    "Gdo.Program.C85_scan_reason",
    "Gdo.Program.C85_option",
    "Gdo.Program.C85_value",
    "Gdo.Program.C85_duplicates",
    "Gdo.Program.C85_exists",
    "Gdo.Program.C85_write",
    "Gdo.Program.C85_template"
   ],
   "note": "one theorem for each failure, with the whole text on standard error and the unchanged state; scan errors need an unsigned char type or ASCII input (else the message is undefined, see C82)"
  },
  {
   "property": "C86",
   "status": "partial",
   "theorems": [
    "Gdo.Program.C86_all_partial",
    "Gdo.Program.C86_filtered_partial",
    "Gdo.Program.C86_violated_typedef",
    "Gdo.Program.C86_violated_const"
   ],
   "note": "composes C57 and C16 with the recognition of the dump, the creation of type definitions and the listing; violated for a pointer to a function that returns a pointer to a function (the whole run fails) and for constant pointers to functions (no declaration)"
  },
  {
   "property": "C87",
   "status": "partial",
   "theorems": [
    "Gdo.CxxWin.C87_null",
    "Gdo.CxxWin.C87_origin",
    "Gdo.CxxWin.C87_handles",
    "Gdo.CxxWin.C87_finish",
    "Gdo.CxxWin.C87_queries",
    "Gdo.CxxWin.C87_destroyed",
    "Gdo.CxxWin.C87_path",
    "Gdo.CxxWin.C87_violated",
    "Gdo.CxxWin.C87_violated_cached",
    "Gdo.CxxWin.C87_partial",
    "Gdo.CxxWin.C87_found"
   ],
   "note": "invariants over all programs with any number of objects; violated: the stored path of an object outlives the library; partial for programs with one object at a time"
  },
  {
   "property": "C88",
   "status": "partial",
   "theorems": [
    "Gdo.CxxWin.C88_narrow",
    "Gdo.CxxWin.C88_wide",
    "Gdo.CxxWin.C88_converted",
    "Gdo.CxxWin.C88_stored",
    "Gdo.CxxWin.C88_told",
    "Gdo.CxxWin.C88_again",
    "Gdo.CxxWin.C88_violated",
    "Gdo.CxxWin.C88_violated_query",
    "Gdo.CxxWin.C88_partial"
   ],
   "note": "narrow, wide and converted names with the exact call; violated: a converted name has a NUL at its end, and filename_w() changes the function load() uses; partial: read as C strings the names are right"
  },
  {
   "property": "C89",
   "status": "proved",
   "theorems": [
    "Gdo.CxxWin.C89_all",
    "Gdo.CxxWin.C89_symbol",
    "Gdo.CxxWin.C89_asked",
    "Gdo.CxxWin.C89_kept",
    "Gdo.CxxWin.C89_constructed",
    "Gdo.CxxWin.C89_refused",
    "Gdo.CxxWin.C89_name",
    "Gdo.CxxWin.C89_unknown",
    "Gdo.CxxWin.C89_safe"
   ],
   "note": "constructors, refused calls, loading all symbols, one by number and one by name"
  },
  {
   "property": "C90",
   "status": "partial",
   "theorems": [
    "Gdo.CxxWin.C90_text",
    "Gdo.CxxWin.C90_violated_nul",
    "Gdo.CxxWin.C90_open",
    "Gdo.CxxWin.C90_violated_convert",
    "Gdo.CxxWin.C90_violated_loaded",
    "Gdo.CxxWin.C90_refused",
    "Gdo.CxxWin.C90_violated_symbol",
    "Gdo.CxxWin.C90_system",
    "Gdo.CxxWin.C90_clean",
    "Gdo.CxxWin.C90_current",
    "Gdo.CxxWin.C90_again"
   ],
   "note": "exact code and message for every failing call, and that texts are current in every program; violated: code 0 for a library already loaded, stale code for a failed conversion, missing symbols are not named, NUL inside converted messages"
  },
  {
   "property": "C91",
   "status": "partial",
   "theorems": [
    "Gdo.CxxWin.C91_partial",
    "Gdo.CxxWin.C91_reason",
    "Gdo.CxxWin.C91_violated",
    "Gdo.CxxWin.C91_violated_wide"
   ],
   "note": "violated: the reason of a failed load is replaced by code 6, and with a wide default library an address is shown; partial: never NULL, the symbol is named, the library is named without wide characters, the reason is given if the library is open"
  },
  {
   "property": "C92",
   "status": "partial",
   "theorems": [
    "Gdo.Help.C92_described",
    "Gdo.Help.C92_complete_partial",
    "Gdo.Help.C92_unlisted",
    "Gdo.Help.C92_violated_question",
    "Gdo.Help.C92_violated_next",
    "Gdo.Help.C92_violated_name",
    "Gdo.Help.C92_mentions_partial",
    "Gdo.Help.C92_mentions",
    "Gdo.Help.C92_options",
    "Gdo.Help.C92_formats",
    "Gdo.Help.C92_formats_full",
    "Gdo.Help.C92_modes",
    "Gdo.Help.C92_keywords",
    "Gdo.Help.C92_progname"
   ],
   "note": "violated: -? is accepted but not listed, a value may be given as the next argument though no text says so, and the full text mentions an option -name that does not exist; partial: every other option accepted is listed and every one listed is accepted with the effect of its entry; formats, modes, template options and keywords agree exactly"
  },
  {
   "property": "C93",
   "status": "partial",
   "theorems": [
    "Gdo.IO.C93_files_partial",
    "Gdo.IO.C93_violated_copy",
    "Gdo.IO.C93_open",
    "Gdo.IO.C93_violated_closed",
    "Gdo.IO.C93_output_partial",
    "Gdo.IO.C93_opened",
    "Gdo.IO.C93_violated_lost"
   ],
   "note": "violated: a copied object closes its file twice, is_open() is true behind close(), and a failed write is never reported; partial: without copies every file is closed exactly once, and without failing writes every text is where it belongs"
  },
  {
   "property": "C94",
   "status": "proved",
   "theorems": [
    "Gdo.Builtin.C94_compiled",
    "Gdo.Builtin.C94_dumped",
    "Gdo.Builtin.C94_output",
    "Gdo.Builtin.C94_nothing_left",
    "Gdo.Builtin.C94_saved",
    "Gdo.Builtin.C94_processed",
    "Gdo.Builtin.C94_generate",
    "Gdo.Builtin.C94_program"
   ],
   "note": "Prefix not empty and not beginning with a digit (else see C29); symbols without percent signs and NUL, which holds for all read from text (C84). With -line the texts are the same and #line lines come in addition (C26, C62)."
  },
  {
   "property": "C95",
   "status": "partial",
   "theorems": [
    "Gdo.CForm.C95_template",
    "Gdo.CForm.C95_processed",
    "Gdo.CForm.C95_body",
    "Gdo.CForm.C95_header",
    "Gdo.CForm.C95_generate",
    "Gdo.CForm.C95_text",
    "Gdo.CForm.C95_define",
    "Gdo.CForm.C95_library",
    "Gdo.CForm.C95_include",
    "Gdo.CForm.C95_violated",
    "Gdo.CForm.C95_program_partial"
   ],
   "note": "Needs closed brackets in the declarations (C95_violated shows that the program does not check this) and in what options give: -D, -include, -library, the name of the output file. Names of symbols may have no quotes, which holds for all read from text."
  },
  {
   "property": "C96",
   "status": "proved",
   "theorems": [
    "Gdo.Cc.C96_text",
    "Gdo.Cc.C96_written",
    "Gdo.Cc.C96_named"
   ],
   "note": "For the files common.c and c.c of the built-in templates. Conditions are evaluated with one setting of the macros for the whole text; macros are not expanded. Names of symbols must be words and types must have no quotes, comments or line ends."
  },
  {
   "property": "C97",
   "status": "proved",
   "theorems": [
    "Gdo.Cc.C97_step",
    "Gdo.Cc.C97_wrap",
    "Gdo.Cc.C97_run",
    "Gdo.Cc.C97_finish",
    "Gdo.Cc.C97_names"
   ],
   "note": "Each function of c.c and common.c, as the tree proven equal to the generated text (C96), is executed by the semantics of Spec/CSem; results equal the model of the run-time functions for every state, loader and list of symbols (C97_step, C97_wrap), hence for all call sequences and whole programs (C97_run, C97_finish); renaming is injective on the names of the code (C97_names). Limits: dlfcn without Windows and AIX, integers unbounded, values of macros written down in Model/CSystem, _gdo_fullpath_procmap as a system function (proven separately in C69), the prefix has no backslash, the symbols are distinct."
  },
  {
   "property": "C98",
   "status": "proved",
   "theorems": [
    "Gdo.Cc.C98_text",
    "Gdo.Cc.C98_written",
    "Gdo.Cc.C98_free",
    "Gdo.Cc.C98_load",
    "Gdo.Cc.C98_run"
   ],
   "note": "Text and meaning of minimal.h: C98_text, C98_written (tokens of the generated header = tokens of the trees of Model/CProgOther for all macro settings), C98_free, C98_load (executing the trees = Model/Minimal), C98_run (all sequences of calls). Limits: execution for dlfcn, AIX and Windows; macros at their values in Model/CSystemMin; the symbols are distinct."
  },
  {
   "property": "C99",
   "status": "proved",
   "theorems": [
    "Gdo.Cc.C99_text",
    "Gdo.Cc.C99_written",
    "Gdo.Cc.C99_load",
    "Gdo.Cc.C99_holds",
    "Gdo.Cc.C99_release",
    "Gdo.Cc.C99_release_null",
    "Gdo.Cc.C99_memory",
    "Gdo.Cc.C99_run"
   ],
   "note": "Text and meaning of plugin.c with common.c: C99_text, C99_written; C99_load, C99_release, C99_release_null (executing the trees, with a memory of structures and arrays, = Model/Plugin for all states), C99_holds, C99_memory, C99_run (load then release: everything closed and released, memory restored). Limits: execution for dlfcn and Windows; the two allocations of one call have different addresses; integers unbounded; the layout of the structures of plugin.h is written down in Model/CSystemPlug; the symbols are distinct."
  },
  {
   "property": "C100",
   "status": "partial",
   "theorems": [
    "Gdo.Cpp.C100_narrow",
    "Gdo.Cpp.C100_extension",
    "Gdo.Cpp.C100_wide_partial",
    "Gdo.Cpp.C100_others",
    "Gdo.Cpp.C100_library_partial",
    "Gdo.Cpp.C100_part",
    "Gdo.Cpp.C100_override",
    "Gdo.Cpp.C100_default_partial",
    "Gdo.Cpp.C100_violated"
   ],
   "note": "Proved for PREFIX_LIBNAMEA and the extension macros, for all names, systems and macros defined before. The wide and general macros expand their arguments: violated with a macro such as linux (witness), proved if no word of the name is a macro. For the default library the text between the file name macros and common.h must consist of whole lines that leave 16 names alone; the operator ## is not specified."
  },
  {
   "property": "C101",
   "status": "proved",
   "theorems": [
    "Gdo.Cc.W.C101_step",
    "Gdo.Cc.W.C101_wrap",
    "Gdo.Cc.W.C101_run",
    "Gdo.Cc.W.C101_finish",
    "Gdo.Cc.W.C101_enough",
    "Gdo.Cc.W.C101_free",
    "Gdo.Cc.W.C101_localFree"
   ],
   "note": "As C97 for GDO_WINAPI: every function of c.c and common.c is executed by the semantics of Spec/CSem with the Windows functions of Model/CSystemWin (a heap of blocks, LocalFree and free distinguished); the results are those of Model/Win and the heap is exactly the one before the call (C101_step, C101_wrap), hence for all call sequences and whole programs (C101_run, C101_finish); the number of nested calls and loop repetitions is not a restriction (C101_enough); giving back a block with the wrong function, or twice, is undefined in that semantics (C101_free, C101_localFree). Limits: malloc and _tcsdup do not fail, integers unbounded, values of macros written down in Model/CSystemWin, characters as in Model/Win, no conversion gives an empty string for a non-empty one, the prefix has no backslash, the symbols are distinct, dlfcn-win32 only as far as it selects the same code."
  },
  {
   "property": "C102",
   "status": "partial",
   "theorems": [
    "Gdo.Cpp.C102_headerPart",
    "Gdo.Cpp.C102_bodyPart",
    "Gdo.Cpp.C102_header",
    "Gdo.Cpp.C102_body",
    "Gdo.Cpp.C102_single_exact",
    "Gdo.Cpp.C102_single_partial",
    "Gdo.Cpp.C102_name",
    "Gdo.Cpp.C102_single_violated",
    "Gdo.Cpp.C102_object_violated",
    "Gdo.Cpp.C102_header_file",
    "Gdo.Cpp.C102_body_file",
    "Gdo.Cpp.C102_single_file_exact",
    "Gdo.Cpp.C102_single_file_partial",
    "Gdo.Cpp.C102_text",
    "Gdo.Cpp.C102_name_violated"
   ],
   "note": "Proved on the preprocessor semantics of Spec/CMacro (directives, ## and hide sets) for the very lines of the embedded templates, instantiated with arbitrary symbols: header of separate files (C102_header), body file (C102_body), single file (C102_single_exact, in terms of GDO_WRAP_IS_VISIBLE, which is what c.c tests; C102_single_partial in terms of GDO_WRAP_VISIBILITY), name of wrappers (C102_name), and how those lines lie in the whole text (C102_headerPart, C102_bodyPart). C102_header_file, C102_body_file, C102_single_file_exact and C102_single_file_partial state the same for all the text of c.h, common.c and c.c as generated, for symbols whose data has no quotes, #, / or backslash (so for all symbols of a text file, C102_text). Assumed: included headers define none of the names, no symbol has the name of one of the macros of the templates; violated otherwise (C102_name_violated). Violated: a single file with GDO_WRAP_VISIBILITY renames functions to wrappers that do not exist (C102_single_violated); object macros lack parentheses (C102_object_violated)."
  },
  {
   "property": "C103",
   "status": "proved",
   "theorems": [
    "Gdo.Cc.C103_text",
    "Gdo.Cc.C103_written",
    "Gdo.Cc.C103_free",
    "Gdo.Cc.C103_load",
    "Gdo.Cc.C103_step",
    "Gdo.Cc.C103_run"
   ],
   "note": "Text and meaning of minimal_cxxeh.hpp: C103_text, C103_written (tokens of the generated header = tokens of the trees of Model/CProgCxx for all macro settings), C103_free, C103_load, C103_step (executing the trees = Model/Minimal with the exceptions of Err.exn), C103_run (all sequences of calls). Limits: the classes of exceptions are declarations without code; the copy of the message in std::runtime_error does not fail; the symbols are distinct."
  },
  {
   "property": "C104",
   "status": "proved",
   "theorems": [
    "Gdo.Cpp.C104_body",
    "Gdo.Cpp.C104_body_rest",
    "Gdo.Cpp.C104_body_text",
    "Gdo.Cpp.C104_plugin",
    "Gdo.Cpp.C104_plugin_rest",
    "Gdo.Cpp.C104_minimal",
    "Gdo.Cpp.C104_length",
    "Gdo.Cpp.C104_header"
   ],
   "note": "C104_header (c.h), C104_body, C104_body_rest, C104_body_text (c.c: the macros behind line 91, and that the code behind leaves them alone), C104_plugin, C104_plugin_rest, C104_minimal, C104_length. Limits: the macros are given as definition lines; that the functions of Model/CSystem* are what these lines mean is not formalised, except for the literal values; _T on Windows comes from tchar.h; _GDO_WRAP_CHECK_LOADED and the #undef lines at the ends are not included."
  },
  {
   "property": "C105",
   "status": "proved",
   "theorems": [
    "Gdo.Cpp.C105_first",
    "Gdo.Cpp.C105_again",
    "Gdo.Cpp.C105_stays",
    "Gdo.Cpp.C105_times",
    "Gdo.Cpp.C105_header_first",
    "Gdo.Cpp.C105_header_again",
    "Gdo.Cpp.C105_header_times",
    "Gdo.Cpp.C105_pragma"
   ],
   "note": "C105_first and C105_again for any guarded text, C105_times for any number of inclusions, C105_stays (text that does not mention the guard keeps it defined); C105_header_first, C105_header_again, C105_header_times and C105_pragma for the whole text of the header of every format (headerText, the text written by C41/C94). That the text inside of the guard is accepted by the preprocessor the first time is a hypothesis (C100, C102 and C104 give it for its parts). Trusted: what a compiler does on reading #pragma once a second time."
  },
  {
   "property": "C106",
   "status": "proved",
   "theorems": [
    "Gdo.Cpp.C106_header_refused",
    "Gdo.Cpp.C106_templates",
    "Gdo.Cpp.C106_header",
    "Gdo.Cpp.C106_library",
    "Gdo.Cpp.C106_refused",
    "Gdo.Cpp.C106_accepted"
   ],
   "note": "C106_refused and C106_accepted for common.h (any text behind it), C106_templates for common.h and c.h, C106_header and C106_header_refused for the whole text of the header of the C format, C106_library (the library names of the tool). That the text in front of the templates (file name macros, extra definitions, includes, typedefs) is accepted is a hypothesis; headers that are included must leave alone the names of the configuration and of the symbols, and no symbol may have a name that common.h defines."
  },
  {
   "property": "C107",
   "status": "partial",
   "theorems": [
    "Gdo.Cpp.C107_front",
    "Gdo.Cpp.C107_refused",
    "Gdo.Cpp.C107_separate",
    "Gdo.Cpp.C107_program",
    "Gdo.Cpp.C107_templates_exact",
    "Gdo.Cpp.C107_templates_partial",
    "Gdo.Cpp.C107_single_exact",
    "Gdo.Cpp.C107_single_partial",
    "Gdo.Cpp.C107_program_single_exact",
    "Gdo.Cpp.C107_program_single_partial",
    "Gdo.Cpp.C107_visible_violated"
   ],
   "note": "C107_front for the text in front of the templates in every format, C107_refused for the refused configurations in C and C++, C107_separate for the whole header of separate output in C, C107_single_exact for a single file in C in every configuration, C107_program and C107_program_single_exact for a successful run of the program with symbols of a text file. The definitions given with -D must be whole lines and each extra include one line; headers that are included must leave alone the names of the configuration and of the symbols; no symbol may have a name that common.h defines. The intended condition, WRAP_VISIBILITY, holds for single files in C only where WRAP_IS_VISIBLE is defined together with it (C107_single_partial, C107_program_single_partial); C107_visible_violated shows that functions are renamed otherwise."
  },
  {
   "property": "C108",
   "status": "partial",
   "theorems": [
    "Gdo.Cpp.Cxx.C108_headerPart",
    "Gdo.Cpp.Cxx.C108_bodyPart",
    "Gdo.Cpp.Cxx.C108_header",
    "Gdo.Cpp.Cxx.C108_body",
    "Gdo.Cpp.Cxx.C108_single",
    "Gdo.Cpp.Cxx.C108_space_violated",
    "Gdo.Cpp.Cxx.C108_object_violated",
    "Gdo.Cpp.Cxx.C108_header_file",
    "Gdo.Cpp.Cxx.C108_body_file",
    "Gdo.Cpp.Cxx.C108_single_file",
    "Gdo.Cpp.Cxx.C108_templates",
    "Gdo.Cpp.Cxx.C108_header_whole",
    "Gdo.Cpp.Cxx.C108_separate",
    "Gdo.Cpp.Cxx.C108_program",
    "Gdo.Cpp.Cxx.C108_templates_single",
    "Gdo.Cpp.Cxx.C108_whole",
    "Gdo.Cpp.Cxx.C108_program_single"
   ],
   "note": "C108_header, C108_body and C108_single for the aliases, C108_header_file, C108_body_file and C108_single_file for the templates, C108_separate and C108_whole for the files with the text of the tool, C108_program and C108_program_single for a successful run. No symbol may have the name of the namespace (C108_space_violated) or begin with the upper-case prefix, or have a name that common.h defines. C108_object_violated: the macros for objects have no parentheses."
  },
  {
   "property": "C109",
   "status": "partial",
   "theorems": [
    "Gdo.Cpp.Min.C109_aliases",
    "Gdo.Cpp.Min.C109_template",
    "Gdo.Cpp.Min.C109_whole",
    "Gdo.Cpp.Min.C109_program",
    "Gdo.Cpp.Min.C109_object_violated",
    "Gdo.Cpp.Min.C109_owner_violated"
   ],
   "note": "C109_aliases for the definitions, C109_template for the whole template, C109_whole for the file with the text of the tool, C109_program for a successful run; the flag cxx selects the format. No symbol may begin with the upper-case prefix, have the name of the handle or namespace (C109_owner_violated) or the name _PREFIX_LOAD_SYM. C109_object_violated: the macros for objects have no parentheses."
  },
  {
   "property": "C110",
   "status": "proved",
   "theorems": [
    "Gdo.Cpp.Clean.C110_minimal",
    "Gdo.Cpp.Clean.C110_template",
    "Gdo.Cpp.Clean.C110_templates",
    "Gdo.Cpp.Clean.C110_body",
    "Gdo.Cpp.Clean.C110_header",
    "Gdo.Cpp.Clean.C110_untouched",
    "Gdo.Cpp.Clean.C110_program",
    "Gdo.Cpp.Clean.C110_flags"
   ],
   "note": "C110_template and C110_minimal for each template, C110_header for the whole header or single file, C110_untouched without definitions of the user, C110_body for the body file, C110_program for a successful run with symbols of a text file. C110_flags shows that the exception for the names in sharedNames is needed. Assumed: included headers do not define the name (in the body file this includes the generated header, for which C110_header says so) nor the names of the configuration; symbols are identifiers; -D text is whole lines; each extra include is one line. The header is read with its guard not defined (C105 is about the other case)."
  },
  {
   "property": "C111",
   "status": "proved",
   "theorems": [
    "Gdo.Cpp.C111_templates",
    "Gdo.Cpp.C111_unit",
    "Gdo.Cpp.C111_program",
    "Gdo.Cpp.Cxx.C111_cxx_templates",
    "Gdo.Cpp.Cxx.C111_cxx_unit",
    "Gdo.Cpp.Cxx.C111_cxx_program"
   ],
   "note": "C111_templates and C111_unit for the templates and the files in C, C111_program for a successful run; C111_cxx_templates, C111_cxx_unit, C111_cxx_program for C++. Pasted says that the line with #include of the header is replaced with the content of the header. Assumed as in C107: other included headers define none of the names of the configuration or of symbols, symbols are identifiers that are not names of the templates, -D text is whole lines, each extra include is one line, no #line directives, and the user's definitions do not remove PREFIX_INCLUDED_IN_BODY."
  },
  {
   "property": "C112",
   "status": "partial",
   "theorems": [
    "Gdo.Cpp.C112_header",
    "Gdo.Cpp.C112_decl_violated",
    "Gdo.Cpp.C112_file",
    "Gdo.Cpp.C112_program"
   ],
   "note": "C112_header for the templates common.h and c.h in this order; C112_file for the whole generated file, with separate files the header, seen from a translation unit that includes it, otherwise the single file; C112_program for a successful run. Reaches says that the text of the definition (wrapCode) is reached with all conditionals true, Wraps what its macros are there. Missing: whether the compiler can pass on variable arguments is not derived; included headers define none of the names of the configuration, of symbols, of wrappers or of hooks; a function named DECL is left out (C112_decl_violated shows why)."
  }
 ]
}
