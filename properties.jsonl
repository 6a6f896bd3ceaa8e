{"id": "C01", "title": "Scanning any input is total and silent", "statement": "For every input byte sequence the scanner terminates: each step consumes at least one byte or stops, it ends in end-of-input, an AST marker, or a reported lexing error, and no input byte is ever copied to standard output by the scanner's default rule.", "quantifier": "all byte sequences and all start conditions of the scanner", "why_tests_cant": "A test feeds finitely many inputs; a single unmatched byte in one start condition would leak text into the generated file or loop.", "anchors": ["src/lex.l: rules section", "src/lex.h", "src/tokenize.cpp: tokenize_stream"]}
{"id": "C02", "title": "Whitespace and comments between tokens do not change the declarations read", "statement": "Inserting any block of white space, a closed C comment, or a // comment line between two tokens of the input leaves the sequence of declarations and options that the program reads unchanged.", "quantifier": "all token sequences, all separators built from white space and comments, all comment bodies", "why_tests_cant": "Comment bodies and positions are unbounded; tests cover a handful of them.", "anchors": ["src/lex.l: COMMENT, C_COMMENT states", "src/tokenize.cpp: tokenize_stream"]}
{"id": "C03", "title": "A // comment ends with its logical line", "statement": "A // comment hides exactly the rest of its logical line (a backslash-newline joins the next line), so a declaration on a later line is always read.", "quantifier": "all comment texts, all following lines", "why_tests_cant": "The failing shape (backslash, newline, blank line) is one of infinitely many texts and does not occur in the test inputs.", "anchors": ["src/lex.l: split, COMMENT state"]}
{"id": "C04", "title": "%option affects only its own logical line", "statement": "Words are taken as options only on the logical line that begins with %option; the following line is read as declarations again.", "quantifier": "all option lines and all following lines", "why_tests_cant": "Tests only use non-empty %option lines.", "anchors": ["src/lex.l: option rule, OPTION state", "src/tokenize.cpp: tokenize_stream"]}
{"id": "C05", "title": "Type definitions contribute no symbols", "statement": "A struct, union, enum or typedef statement, with any balanced and arbitrarily nested body, is skipped completely: the declarations read from the input are the same as if the statement were absent.", "quantifier": "all type definition statements with balanced braces, at every statement position", "why_tests_cant": "Nesting depth and body content are unbounded.", "anchors": ["src/tokenize.cpp: tokenize_stream"]}
{"id": "C06", "title": "Statements are split exactly at top level semicolons", "statement": "The declarations read are exactly the maximal non-empty runs of tokens between semicolons, in input order, and a missing final semicolon makes no difference.", "quantifier": "all sequences of tokens outside type definitions", "why_tests_cant": "Unbounded number and shape of declarations.", "anchors": ["src/tokenize.cpp: tokenize_stream"]}
{"id": "C07", "title": "The declaration parser never reads outside the token list", "statement": "For every list of tokens, parsing it as a declaration or as a parameter either yields a classification or an error; no token is read before the first or after the last one.", "quantifier": "all token lists, all patterns", "why_tests_cant": "Out of bounds reads only show on particular token shapes and may go unnoticed when they happen.", "anchors": ["src/check_pattern.cpp: check_pattern, find_first_not_pointer_or_ident", "src/parse.cpp: check_prototype", "src/parameter_names.cpp"]}
{"id": "C08", "title": "Function declarations are read back faithfully", "statement": "Every function declaration `TYPE name(params);`, also written as `TYPE (name)(params);` or `TYPE (*name(params));`, is classified as a function with exactly that return type, that symbol name and those parameters.", "quantifier": "all return types made of identifiers and pointer stars, all names, all parameter lists with balanced parentheses", "why_tests_cant": "Types, names and parameter lists are unbounded.", "anchors": ["src/parse.cpp: check_function, check_function_paren, check_function_paren_pointer, check_prototype", "src/check_pattern.cpp"]}
{"id": "C09", "title": "Function pointer variables are read as objects", "statement": "Every declaration `TYPE (*name)(params);` is read as a variable of function pointer type called name, never as a function.", "quantifier": "all types, names and parameter lists", "why_tests_cant": "Tests use a single-word return type only; the wrong reading appears with two or more words.", "anchors": ["src/parse.cpp: check_prototype, check_function, check_function_pointer", "src/check_pattern.cpp: is_function, is_function_pointer"]}
{"id": "C10", "title": "Variables and arrays are read back faithfully", "statement": "Every declaration `TYPE name;` or `TYPE name[...]...;` is read as an object with exactly that type and that name.", "quantifier": "all types, names and array suffixes", "why_tests_cant": "Types and suffixes are unbounded.", "anchors": ["src/parse.cpp: check_object, check_array, check_prototype"]}
{"id": "C11", "title": "Parameter lists are split at top level commas only", "statement": "The parameters of a function are the segments of its parameter list between commas that are not enclosed in parentheses; joining them with commas gives the list back and no segment has a comma at nesting depth zero.", "quantifier": "all token lists with balanced parentheses", "why_tests_cant": "Nesting is unbounded.", "anchors": ["src/parse.cpp: copy_parameters"]}
{"id": "C12", "title": "Created parameter names are the distinct names a1..an", "statement": "With -param=create, a function with n parameters gets the argument list `T1 a1, ..., Tn an` and the call list `a1, ..., an`, names are pairwise distinct, and a `...` parameter stays last and unnamed in the argument list.", "quantifier": "all parameter lists the parser accepts", "why_tests_cant": "n and the parameter types are unbounded.", "anchors": ["src/parameter_names.cpp: create_parameter_names"]}
{"id": "C13", "title": "Read parameter names match the declaration", "statement": "With -param=read, the call list consists of the parameter names of the declaration in order, one per parameter, with neither name invented nor dropped; a nameless parameter is reported as an error.", "quantifier": "all parameter lists", "why_tests_cant": "Unbounded lists of parameter shapes.", "anchors": ["src/parameter_names.cpp: read_parameter_names, get_parameter_names"]}
{"id": "C14", "title": "No symbol is generated twice", "statement": "A successful run never emits two definitions for the same symbol name: duplicate declarations are rejected.", "quantifier": "all inputs, text and Clang AST, all filter settings", "why_tests_cant": "Depends on all pairs of declarations and on every filter combination.", "anchors": ["src/parse.cpp: multiple_definitions, gendlopen::parse", "src/clang_ast.cpp: get_declarations"]}
{"id": "C15", "title": "Symbol filters select exactly the requested symbols", "statement": "With -P and -S options exactly the symbols that are listed or start with a listed prefix are kept, each once, and the run fails if and only if a listed symbol is missing or nothing is selected.", "quantifier": "all declaration lists, all prefix lists and symbol lists", "why_tests_cant": "All combinations of overlapping filters.", "anchors": ["src/parse.cpp: gendlopen::parse", "src/utils.hpp: get_filter_mode", "src/utils.cpp: is_prefixed"]}
{"id": "C16", "title": "Symbol filters mean the same for Clang AST input", "statement": "With Clang AST input the -P and -S options select the same set of symbols as they do for text input with the same declarations.", "quantifier": "all AST declaration lists, all filters", "why_tests_cant": "The difference needs a symbol that is both listed and prefixed.", "anchors": ["src/clang_ast.cpp: get_declarations, parse_clang_ast"]}
{"id": "C17", "title": "Removing superfluous parentheses is harmless", "statement": "Removing superfluous parentheses keeps all other tokens in order, keeps parentheses balanced, leaves no doubly enclosed group behind and only removes one of two directly nested pairs.", "quantifier": "all token lists", "why_tests_cant": "Nesting is unbounded.", "anchors": ["src/tokenize.cpp: remove_superfluous_parentheses, remove_matching_parentheses, erase_Rparen"]}
{"id": "C18", "title": "Prototype formatting only changes spaces", "statement": "Formatting a prototype string removes spaces only, all other characters are kept in order, the result contains none of the unwanted blank patterns, and formatting again changes nothing.", "quantifier": "all strings", "why_tests_cant": "All strings.", "anchors": ["src/tokenize.cpp: format_prototype", "src/utils.cpp: replace, strip_spaces"]}
{"id": "C19", "title": "Typedefs created for function pointer and array objects", "statement": "For each function pointer or array object one typedef is created whose declarator is the original declarator with the name replaced by the typedef name, and the object's type becomes the typedef name; nothing else in the declarations changes.", "quantifier": "all lists of objects", "why_tests_cant": "Types are unbounded.", "anchors": ["src/tokenize.cpp: create_typedefs, fptr_typedef, array_typedef"]}
{"id": "C20", "title": "Template files are read without loss", "statement": "Reading a template loses nothing: joining the entries with newlines and re-inserting the continuation marks gives the file back, except for a lone continuation mark at the end of the file, and the line counts of the entries add up to the number of lines.", "quantifier": "all file contents", "why_tests_cant": "All byte sequences, including ones that end in a continuation mark, CR LF or no newline.", "anchors": ["src/utils.cpp: get_lines, save_to_line"]}
{"id": "C21", "title": "Dumped templates can be loaded back", "statement": "Writing the built-in templates with -dump-templates and loading the directory with -templates-path gives the same template entries.", "quantifier": "all template lists", "why_tests_cant": "The set of templates is open ended; round trip has to hold for each content.", "anchors": ["src/data.cpp: save_to_file, load_from_file", "src/utils.cpp: get_lines"]}
{"id": "C22", "title": "Embedding templates preserves their text", "statement": "The C string literals that the build step writes for a template decode, by the rules of the C language, to exactly the entries that reading the same file at run time gives.", "quantifier": "all template texts without CR", "why_tests_cant": "All byte sequences; escape sequences interact with the following character.", "anchors": ["src/gen_templates_data.c: dump", "src/utils.cpp: get_lines"]}
{"id": "C23", "title": "Keyword replacement equals simultaneous substitution", "statement": "For a template entry made of plain text and %%keywords%%, the text written for one symbol is the entry with every keyword replaced by the symbol's data, all at once, whatever the data are.", "quantifier": "all entries, all symbol data", "why_tests_cant": "Sequential replacement may rewrite text that an earlier replacement inserted; this depends on the data.", "anchors": ["src/substitute.cpp: replace_function_prototypes, replace_object_prototypes, replace_symbol_names", "src/utils.cpp: replace"]}
{"id": "C24", "title": "Each loop entry is written once per symbol in order", "statement": "A template entry with function, object or symbol keywords is written exactly once for each function, object or symbol, in the order of the lists, and an entry without keywords exactly once.", "quantifier": "all entries and lists", "why_tests_cant": "Lists are unbounded.", "anchors": ["src/substitute.cpp: substitute_line, substitute"]}
{"id": "C25", "title": "The reported number of written lines is right", "statement": "The line count that template processing reports is the number of newline characters it wrote.", "quantifier": "all templates, all symbol lists, all settings of -line and -param", "why_tests_cant": "Wrong only for particular combinations of empty symbol lists and -line.", "anchors": ["src/substitute.cpp: substitute_line, substitute", "src/generate.cpp: save_data, line_directive, generate"]}
{"id": "C26", "title": "#line directives written for templates carry the right number", "statement": "With -line every `#line N` directive written while processing a template is followed by output that stems from line N of the template.", "quantifier": "all templates and symbol lists", "why_tests_cant": "Depends on positions in arbitrary templates.", "anchors": ["src/substitute.cpp: substitute_line, substitute", "src/data.cpp: load_from_file"]}
{"id": "C27", "title": "PARAM_SKIP sections select the right lines", "statement": "With -param=skip the lines between the REMOVE markers are left out and the lines between the USE markers are written, without -param=skip it is the other way round, and all other lines are always written; marker lines are never written.", "quantifier": "all templates, all arrangements of the marker lines", "why_tests_cant": "Arrangements of markers are unbounded.", "anchors": ["src/substitute.cpp: check_skip_keyword, substitute"]}
{"id": "C28", "title": "Template processing terminates", "statement": "Template processing terminates for every template and every list of symbols.", "quantifier": "all templates and symbol data, text and Clang AST input", "why_tests_cant": "Divergence appears only when inserted text contains a keyword.", "anchors": ["src/utils.cpp: replace", "src/utils.hpp: find", "src/substitute.cpp"]}
{"id": "C29", "title": "Prefix replacement renames identifiers consistently", "statement": "With -prefix=P every identifier beginning with GDO_, _GDO_, gdo_, _gdo_ and every identifier gdo gets the new prefix, all other text is left alone and the number of lines does not change.", "quantifier": "all texts, all prefixes", "why_tests_cant": "All texts; regex matches may overlap.", "anchors": ["src/gendlopen.cpp: prefix, replace_prefixes"]}
{"id": "C30", "title": "Names derived from options are identifiers", "statement": "The macro and function prefixes and the header guard derived from arbitrary option values contain only letters, digits and underscores.", "quantifier": "all strings", "why_tests_cant": "All strings.", "anchors": ["src/utils.cpp: to_upper, to_lower", "src/gendlopen.cpp: prefix", "src/generate.cpp: header_guard_begin"]}
{"id": "C31", "title": "The common symbol prefix is the longest common prefix", "statement": "The common prefix written into the generated code is a prefix of every symbol, and the longest one.", "quantifier": "all non-empty lists of names", "why_tests_cant": "All lists of names.", "anchors": ["src/generate.cpp: compare_chars_at, get_common_prefix"]}
{"id": "C32", "title": "Loading a symbol by name finds exactly that symbol", "statement": "gdo_load_symbol_name(s) in the generated code tries to load the symbol called s if s is one of the symbols, and otherwise reports an error and loads nothing, with the common prefix optimisation on or off.", "quantifier": "all symbol lists, all names passed by the caller", "why_tests_cant": "All strings the caller may pass, including shorter ones than the common prefix.", "anchors": ["src/templates/c.c: gdo_load_symbol_name", "src/templates/cxx.cpp: gdo::dl::load_symbol", "src/generate.cpp: get_common_prefix"]}
{"id": "C33", "title": "Existing files are never overwritten without -force", "statement": "Generating output never changes or removes an existing file, directory or symbolic link unless -force was given; writing to - never touches the file system.", "quantifier": "all file systems, all output names, all formats, separate or single file output", "why_tests_cant": "All file system states.", "anchors": ["src/generate.cpp: open_ofstream, generate", "src/cio_ofstream.hpp"]}
{"id": "C34", "title": "A failed run leaves no partial output behind", "statement": "If a run with separate header and body fails because an output file already exists, neither file has been written.", "quantifier": "all file systems", "why_tests_cant": "Needs the header absent and the body present.", "anchors": ["src/generate.cpp: open_ofstream, generate"]}
{"id": "C35", "title": "-templates-path replaces all built-in templates, safely", "statement": "With -templates-path every template text written comes from the given directory, and no template list is used after its storage has been released.", "quantifier": "all output formats, separate or single file, all sizes of template files", "why_tests_cant": "Use after reallocation is silent in most runs.", "anchors": ["src/generate.cpp: save_data, generate", "src/data.cpp: load_template, load_from_file"]}
{"id": "C36", "title": "A library name given by the user is never lost", "statement": "For every -library value the generated default library macro is defined and denotes this name: plain names are quoted once, quoted names stay, nq: names stay unquoted, api:/ex: names are turned into the library naming macro.", "quantifier": "all strings", "why_tests_cant": "All strings; the failing ones start with particular letters.", "anchors": ["src/generate.cpp: quote_lib, format_libname"]}
{"id": "C37", "title": "Command line spellings are equivalent", "statement": "For every option with an argument, -opt=value, -opt value, --opt=value and --opt value (and -Xvalue, -X value for one-letter options) have the same effect, for every value.", "quantifier": "all argument vectors, options and values", "why_tests_cant": "All argument vectors.", "anchors": ["src/opt_parser.h", "src/options.cpp: parse_cmdline"]}
{"id": "C38", "title": "Command line parsing is complete and safe", "statement": "For every argument vector, option parsing terminates without reading past its end, consumes each argument exactly once, and either sets the configuration or reports an error; unknown options and a second input file are errors.", "quantifier": "all argument vectors", "why_tests_cant": "All argument vectors.", "anchors": ["src/opt_parser.h: opt_iterate, opt_get_arg", "src/options.cpp: parse_cmdline"]}
{"id": "C39", "title": "%option lines have the effect of the command line options", "statement": "An %option entry has exactly the effect of the command line option of the same name, unknown entries are errors, and %option settings override the command line.", "quantifier": "all option lists", "why_tests_cant": "All option lists.", "anchors": ["src/options.cpp: get_option_len, parse_options"]}
{"id": "C40", "title": "Macro definitions and includes are written correctly", "statement": "A -D value becomes a guarded #define with the text before the first = as the name and the text after it as the value; an -include value becomes an #include with quotes unless it is already enclosed in quotes, angle brackets or marked nq:.", "quantifier": "all strings", "why_tests_cant": "All strings.", "anchors": ["src/gendlopen.cpp: add_def, add_inc", "src/generate.cpp: extra_defines, includes"]}
{"id": "C41", "title": "Header guards are balanced", "statement": "Every generated header has a matching #endif for its guard exactly when an include guard is used, and #pragma once otherwise.", "quantifier": "all settings", "why_tests_cant": "All settings and prefixes.", "anchors": ["src/generate.cpp: header_guard_begin, header_guard_end, generate"]}
{"id": "C42", "title": "Generated C API: no symbol pointers without a library", "statement": "At any time, if no library is loaded all symbol pointers are NULL.", "quantifier": "all sequences of API calls, all behaviours of dlopen, dlsym and dlclose", "why_tests_cant": "Call sequences and loader behaviours are unbounded.", "anchors": ["src/templates/c.c: gdo_load_lib_args, gdo_free_lib, gdo_force_free_lib, gdo_load_all_symbols, gdo_load_symbol"]}
{"id": "C43", "title": "Generated C API: library handles are opened and closed in pairs", "statement": "A handle obtained from the dynamic loader is never closed twice, never used after it was closed, and is never lost: at any time each handle opened and not successfully closed is the current handle, except after gdo_force_free_lib.", "quantifier": "all sequences of API calls, all loader behaviours including failing dlclose", "why_tests_cant": "Call sequences and failures are unbounded.", "anchors": ["src/templates/c.c", "src/templates/common.c"]}
{"id": "C44", "title": "Generated C API: loading all symbols is all or error", "statement": "gdo_load_all_symbols returns true if and only if afterwards all symbol pointers are non-NULL; on failure the error names a symbol that could not be resolved.", "quantifier": "all symbol lists, all states, all loader behaviours", "why_tests_cant": "All failing positions and prior states.", "anchors": ["src/templates/c.c: gdo_load_all_symbols, gdo_all_symbols_loaded"]}
{"id": "C45", "title": "Generated C API: refused calls change nothing", "statement": "Loading a library while one is loaded, loading symbols without a library and loading an unknown symbol return false, freeing without a library returns true, and all of them leave handle and symbol pointers unchanged.", "quantifier": "all states and arguments", "why_tests_cant": "All states.", "anchors": ["src/templates/c.c"]}
{"id": "C46", "title": "Generated C API: failures are reported", "statement": "After a failing API call gdo_last_error returns a non-empty message different from the no-error message.", "quantifier": "all API calls, all states, all loader behaviours", "why_tests_cant": "Each failing path must set a message.", "anchors": ["src/templates/c.c: gdo_last_error, gdo_library_path"]}
{"id": "C47", "title": "Automatic loading never calls through a NULL pointer", "statement": "When a wrapper function of the generated code calls the wrapped function, its pointer is non-NULL, for each of the wrapper modes; otherwise the process has been terminated with a message.", "quantifier": "all states, symbols, loader behaviours and wrapper modes", "why_tests_cant": "All states in which a wrapper may be entered.", "anchors": ["src/templates/c.c: gdo_quick_load, _gdo_wrap_check_loaded", "src/templates/cxx.cpp: gdo::wrap"]}
{"id": "C48", "title": "Automatic loading reports why the library could not be loaded", "statement": "If automatic loading fails because the library cannot be opened, the message shown contains the dynamic loader's reason.", "quantifier": "all loader behaviours", "why_tests_cant": "Depends on the order of error updates inside the failure path.", "anchors": ["src/templates/c.c: gdo_quick_load, _gdo_wrap_check_loaded, gdo_load_all_symbols"]}
{"id": "C49", "title": "Minimal API: error leaves a clean state", "statement": "If gdo_load_library_and_symbols of the minimal templates fails, the library handle is freed and all symbol pointers are NULL; if it succeeds all symbol pointers are set.", "quantifier": "all states, all loader behaviours", "why_tests_cant": "All failing positions and prior states.", "anchors": ["src/templates/minimal.h", "src/templates/minimal_cxxeh.hpp"]}
{"id": "C50", "title": "Minimal API: handles do not leak", "statement": "Each handle opened by the minimal templates is either the current one or has been closed.", "quantifier": "all call sequences", "why_tests_cant": "Call sequences.", "anchors": ["src/templates/minimal.h: gdo_load_library_and_symbols"]}
{"id": "C51", "title": "Generated C++ API: objects share one library consistently", "statement": "For any number of gdo::dl objects: the library is closed at most once per opening, no symbol pointer survives the library, and each query answers for the library that is currently loaded.", "quantifier": "all sequences of constructions, calls and destructions on any number of objects", "why_tests_cant": "Object interleavings are unbounded.", "anchors": ["src/templates/cxx.cpp"]}
{"id": "C52", "title": "Plugin loader: each plug-in is opened, reported and released exactly once", "statement": "gdo_load_plugins returns one entry per file in order, with NULL symbol pointers for those that failed, and gdo_release_plugins closes each opened handle once and frees each allocation once.", "quantifier": "all lists of files, all loader behaviours", "why_tests_cant": "Lists and failures are unbounded.", "anchors": ["src/templates/plugin.c"]}
{"id": "C53", "title": "Concurrent first calls through automatic loading", "statement": "If several threads call wrapped functions for the first time concurrently, each call goes through a non-NULL pointer and the library is opened once.", "quantifier": "all schedules of any number of threads", "why_tests_cant": "Schedules are unbounded and tests observe few of them.", "anchors": ["src/templates/c.c: gdo_quick_load, gdo_load_lib_args"]}
{"id": "C54", "title": "Exactly declarations are accepted", "statement": "A statement is accepted by the parser if and only if its tokens are those of a function, function pointer variable, plain variable or array declaration; what is read for an accepted statement is the meaning of a declaration with the same tokens.", "quantifier": "all token lists", "why_tests_cant": "Acceptance of ill-formed input shows only on inputs outside of the test set.", "anchors": ["src/parse.cpp: check_prototype", "src/check_pattern.cpp"]}
{"id": "C55", "title": "No declaration is dropped silently", "statement": "Every declaration statement in the input is either read or reported as an error; only type definitions are skipped.", "quantifier": "all sequences of statements", "why_tests_cant": "The dropped shape (a declaration whose type begins with struct) goes unnoticed because no error is reported.", "anchors": ["src/tokenize.cpp: tokenize_stream"]}
{"id": "C56", "title": "Preprocessor directives contribute nothing and hide nothing", "statement": "A preprocessor directive, with its continuation lines and comments, contributes no tokens, and the text after its logical line is read as if the directive were absent.", "quantifier": "all directives, all following texts", "why_tests_cant": "Comment and continuation shapes inside of directives are unbounded.", "anchors": ["src/lex.l: PRE, PRE_COMMENT states"]}
{"id": "C57", "title": "Clang AST declarations are read faithfully", "statement": "For every Clang AST dump, with or without terminal colours and with any line ends, each function is read with its return type and a parameter list that declares parameters of the printed types named a1, a2, ..., and each variable with its type and kind, in the order of the dump.", "quantifier": "all AST dumps, all types", "why_tests_cant": "The types and the mix of lines in between are unbounded.", "anchors": ["src/clang_ast.cpp: get_declarations, get_parameters, strip_line", "src/lex.l: AST state"]}
{"id": "C58", "title": "Variadic functions of a Clang AST stay variadic", "statement": "A function whose printed type ends in `, ...)` gets a parameter list that ends in `...`.", "quantifier": "all AST dumps with variadic functions", "why_tests_cant": "Generated code still compiles, only calls with more arguments break.", "anchors": ["src/clang_ast.cpp: get_declarations, get_parameters"]}
{"id": "C59", "title": "Listed symbols of a Clang AST are read or reported", "statement": "A successful run with Clang AST input contains every symbol that was given with -S.", "quantifier": "all AST dumps, all symbol lists", "why_tests_cant": "The lost shape is a function declared with a type name; no error is reported.", "anchors": ["src/clang_ast.cpp: get_declarations, parse_clang_ast"]}
{"id": "C60", "title": "Command line errors name the option as typed", "statement": "The error message about a missing or empty option argument contains the option as it was typed, with its prefix.", "quantifier": "all options with an argument, both prefixes", "why_tests_cant": "Nobody compares the text of error messages for each spelling.", "anchors": ["src/opt_parser.h: opt_get_arg, _opt_handle_error"]}
{"id": "C61", "title": "Dumping templates never changes existing files", "statement": "-dump-templates writes the built-in templates into a directory and never changes a file that existed before, unless -force was given.", "quantifier": "all file systems, all directories", "why_tests_cant": "Needs a directory with edited templates; the run reports success.", "anchors": ["src/data.cpp: save_to_file, create_template_files"]}
{"id": "C62", "title": "#line directives in the header carry the right number", "statement": "Each #line directive that is written into a generated header carries a number that makes the compiler report the real line of the header.", "quantifier": "all settings, templates and symbol lists", "why_tests_cant": "Numbers depend on the number of lines of all preceding parts.", "anchors": ["src/generate.cpp: generate, print_lineno"]}
{"id": "C63", "title": "The message about failed automatic loading shows the library's name", "statement": "When automatic loading fails the message written contains the name of the library as it was given, and writing it is defined, for every library name.", "quantifier": "all library names, all failing automatic loads", "why_tests_cant": "Needs a library name with a percent sign; the name is an input of the generator.", "anchors": ["src/templates/c.c: gdo_quick_load, _gdo_wrap_check_loaded, _gdo_print_error"]}
{"id": "C64", "title": "Generated C API: the library path is that of the loaded library", "statement": "gdo_library_path returns a path only while a library is loaded, and the path is one the system named after this library was opened.", "quantifier": "all sequences of API calls, all loader behaviours", "why_tests_cant": "The path is cached; stale answers appear only in sequences of loading and freeing.", "anchors": ["src/templates/c.c: gdo_library_path, gdo_free_lib, gdo_load_lib_args"]}
{"id": "C65", "title": "Generated C++ API: success leaves no error", "statement": "After a call of a gdo::dl member that succeeded, error() says that there is no error.", "quantifier": "all objects, states, members and loader behaviours", "why_tests_cant": "A message left over from a fallback that was tried first shows only with particular systems.", "anchors": ["src/templates/cxx.cpp: gdo::dl"]}
{"id": "C66", "title": "Generated C++ API: failures are reported", "statement": "After a call of a gdo::dl member that failed, error() gives a message that tells about it, if the loader gives one for its own failures.", "quantifier": "all objects, states, members and loader behaviours", "why_tests_cant": "Every failing position of every member.", "anchors": ["src/templates/cxx.cpp: gdo::dl"]}
{"id": "C67", "title": "Generated C++ API: loading symbols is all or error, and refused calls change nothing", "statement": "load_all_symbols succeeds exactly if all symbol pointers are set afterwards, load_symbol leaves its pointer set if it succeeds, and calls that are refused (loading while loaded, an empty name, no library, an unknown symbol) return false and change neither library nor pointers.", "quantifier": "all objects, states and loader behaviours", "why_tests_cant": "Every failing position and prior state.", "anchors": ["src/templates/cxx.cpp: load_all_symbols, load_symbol, load_filename"]}
{"id": "C68", "title": "From header text to symbols", "statement": "For every header text made of white space, comments, directives, option lines and declarations with distinct names, the symbols handed to the generator are exactly the declared functions and objects in their order, with the declared types and parameters, and one typedef for each function pointer or array object; all texts are formatted.", "quantifier": "all texts in any layout, all declarations of the supported shapes", "why_tests_cant": "Each stage alone may be right while the stages do not fit together for some layout or declaration.", "anchors": ["src/tokenize.cpp: gendlopen::tokenize", "src/lex.l", "src/parse.cpp: gendlopen::parse", "src/parameter_names.cpp"]}
{"id": "C69", "title": "Fallback library path from the memory map", "statement": "The path found by the search through /proc/self/maps is that of the mapping which holds the address, and the search succeeds for every map the kernel writes.", "quantifier": "all memory maps in the kernel's format, all addresses", "why_tests_cant": "Depends on device and offset numbers of the machine.", "anchors": ["src/templates/common.c: _gdo_fullpath_procmap"]}
{"id": "C70", "title": "Generated C API on AIX: the library path is that of the loaded library", "statement": "gdo_library_path on AIX returns the path (with the member in parentheses) of the module that holds the address of a loaded symbol, finds one whenever a symbol is loaded from a listed module whose path fits, and reports an error otherwise.", "quantifier": "all lists of loaded modules, all states", "why_tests_cant": "Needs an AIX system and module lists of every shape.", "anchors": ["src/templates/common.c: _gdo_load_library_info, _gdo_parse_ld_info", "src/templates/c.c: _gdo_library_path (AIX)"]}
{"id": "C71", "title": "Generated C API on Windows: handles and pointers stay consistent", "statement": "After any sequence of API calls on Windows, also one that ended the process: symbol pointers are NULL without a library; a pointer that is not NULL was resolved for its symbol in the library that is loaded now; every handle given to the system is open; no handle is lost; with automatic release the library is released when the program ends, and the function is registered once.", "quantifier": "all sequences of API calls, all behaviours of the system", "why_tests_cant": "Sequences and failing system calls are unbounded; needs Windows.", "anchors": ["src/templates/c.c (GDO_WINAPI): gdo_load_lib_args, gdo_free_lib, gdo_force_free_lib, gdo_enable_autorelease, gdo_load_symbol"]}
{"id": "C72", "title": "Generated C API on Windows: loading symbols is all or error, and refused calls change nothing", "statement": "gdo_load_all_symbols returns true exactly if all symbol pointers are set afterwards; gdo_load_symbol sets its pointer or fails and touches no other; loading by name is loading by number; refused calls return false and change neither library, pointers nor path.", "quantifier": "all states, symbol lists and behaviours of the system", "why_tests_cant": "Every failing position and prior state; needs Windows.", "anchors": ["src/templates/c.c (GDO_WINAPI): gdo_load_all_symbols, gdo_load_symbol, gdo_load_symbol_name, gdo_load_lib_args"]}
{"id": "C73", "title": "Generated C API on Windows: the file that is opened", "statement": "The name handed to LoadLibraryEx is the given name with every slash replaced by a backslash (converted, if that was chosen), with the given flags; the call succeeds exactly if the system opens it.", "quantifier": "all file names, flags and behaviours of the system", "why_tests_cant": "File names are unbounded.", "anchors": ["src/templates/c.c: _gdo_load_library, _gdo_load_library_ex, _gdo_mbstowcs"]}
{"id": "C74", "title": "Generated C API on Windows: the library path is that of the loaded library", "statement": "gdo_library_path returns a path only while a library is loaded; the path is one the system named after this library was opened, neither empty nor cut; a path that fits is returned.", "quantifier": "all sequences of API calls, all behaviours of the system", "why_tests_cant": "The path is cached; stale answers appear only in sequences of loading and freeing.", "anchors": ["src/templates/c.c (GDO_WINAPI): gdo_library_path, _gdo_library_path"]}
{"id": "C75", "title": "Generated C API on Windows: failures are reported with place and code", "statement": "After a call that failed, gdo_last_error gives the place (file, symbol or function) and the text for the code of the system call that failed, and the code is never that of success.", "quantifier": "all states, calls and behaviours of the system", "why_tests_cant": "Every failing position; the text depends on the system.", "anchors": ["src/templates/c.c (GDO_WINAPI): gdo_last_error, _gdo_save_error, gdo_load_lib_args, gdo_enable_autorelease"]}
{"id": "C76", "title": "Generated C API on Windows: messages are never stale", "statement": "After a call that succeeded no error is left, even if a message was read before; repeated calls of gdo_last_error give the same text; after any sequence of calls the text is that of the place and code saved last.", "quantifier": "all sequences of API calls, all behaviours of the system", "why_tests_cant": "The message is cached; stale answers appear only in certain sequences.", "anchors": ["src/templates/c.c (GDO_WINAPI): gdo_last_error, _gdo_clear_error, _gdo_save_to_errbuf"]}
{"id": "C77", "title": "Generated C API on Windows: wrapper functions never call NULL and tell the reason", "statement": "A wrapper function calls the address resolved for its symbol, or it ends the process after showing one message that names the symbol and the reason.", "quantifier": "all symbols, states, modes and behaviours of the system", "why_tests_cant": "Every failing position in every mode.", "anchors": ["src/templates/c.c (GDO_WINAPI): _gdo_wrap_check_loaded, _gdo_print_error", "src/templates/c.h: wrappers"]}
{"id": "C78", "title": "Output files have the documented names and contents", "statement": "With separate files the header and the body are the output path with its extension replaced (or appended, if it has none) by .h/.c or .hpp/.cpp; they are different files in one directory, the body includes the header by its file name, a successful run leaves the whole header in one and the whole body in the other and changes no other file; otherwise one file with exactly the given name is written.", "quantifier": "all output paths, settings and file systems", "why_tests_cant": "Paths with several dots, hidden files and directories with dots are unbounded.", "anchors": ["src/generate.cpp: generate, include_header"]}
{"id": "C79", "title": "The configuration macros describe the output", "statement": "The header defines the macro for separate files exactly if header and body are separate, the macro for variable arguments exactly for the functions whose parameters end in three dots, and the common prefix as one string that begins the name of every symbol.", "quantifier": "all symbol lists, settings and templates", "why_tests_cant": "A macro that is defined for the wrong function changes only the code of that function.", "anchors": ["src/generate.cpp: generate, extra_defines"]}
{"id": "C80", "title": "The listing of the symbols is a header that declares them", "statement": "The text written by -print-symbols is itself a valid input: reading it with the same options gives the same functions and objects with the same types, names and parameters, and its last comment tells their number.", "quantifier": "all headers of functions, function pointers, arrays and objects, all prefixes", "why_tests_cant": "The listing is shown to a person; whether it can be read again for every combination of comments, typedefs and declarations is not seen from samples.", "anchors": ["src/gendlopen.cpp: print_symbols, print_symbol_type", "src/tokenize.cpp: tokenize"]}
{"id": "C82", "title": "A scan error names the offending character and its line", "statement": "Reading an input fails exactly if there is an error to report; the reported character stands in the input on the reported line and can belong to no declaration; the first such character behind readable text is reported whatever follows; a dump that does not begin in line 1 is reported with its line; different errors have different messages, and a message fits into its buffer.", "quantifier": "all inputs; all readable texts followed by an offending character and any rest", "why_tests_cant": "Line numbers go wrong only behind particular combinations of comments, continuation lines and directives, which are unbounded.", "anchors": ["src/lex.l: set_illegal_char, handle_ast_begin, yylineno", "src/tokenize.cpp: tokenize_stream"]}
{"id": "C81", "title": "The program from the command line to its files", "statement": "A run of the program ends with status 0 and no message, or with status 1 and one message; unless -force or -dump-templates is given it changes nothing that exists; if the command line or the input is not accepted it writes nothing; a failed run leaves the previous output as it was; -print-symbols writes no file; a successful run has written the whole output; -help, -full-help and -version print their text and end, whatever follows; a run always ends and has no undefined behaviour.", "quantifier": "all argument lists, input texts, templates, file systems", "why_tests_cant": "The parts are tested alone; combinations of options, failing steps and file systems are unbounded.", "anchors": ["src/main.cpp: main", "src/tokenize.cpp: gendlopen::tokenize", "src/options.cpp: gendlopen::parse_cmdline", "src/generate.cpp: generate, open_file", "src/gendlopen.cpp: process_custom_template, print_symbols_to_stdout"]}
{"id": "C83", "title": "The message about missing symbols names exactly those that are missing", "statement": "If symbols are given with -S that the input does not declare, the run fails with status 1, nothing is written, and the message lists each of these symbols once, in alphabetical order, and no other.", "quantifier": "all inputs, all lists of symbols and prefixes", "why_tests_cant": "Repeated and existing names in the list, and prefixes that also match, are unbounded combinations.", "anchors": ["src/parse.cpp: gendlopen::parse", "src/clang_ast.cpp: gendlopen::parse_clang_ast", "src/utils.hpp: sort_dedup"]}
{"id": "C84", "title": "The data of symbols are plain text", "statement": "Whatever text is read as declarations, the names, types and parameters of the resulting symbols consist of letters, digits, underscores, blanks and the punctuation of C declarations, and every name is an identifier; so they have no percent sign, line end or zero byte, and template processing always ends.", "quantifier": "all input texts, all options", "why_tests_cant": "Input texts are unbounded; one stray character in a symbol would change how templates are processed.", "anchors": ["src/lex.l", "src/tokenize.cpp", "src/parse.cpp", "src/parameter_names.cpp"]}
{"id": "C85", "title": "Failures name what is wrong and where", "statement": "If the input cannot be read or scanned, has an option that does not exist or a symbol declared twice, if a format or mode does not exist, if the output file exists or cannot be created, or the template cannot be read, then the run ends with status 1, writes no file, and its message names the file, the option, the value, the symbol, or the character and its line.", "quantifier": "all argument lists, inputs, symbols and file systems", "why_tests_cant": "One wrong branch among many messages is not noticed, and the names in them are unbounded.", "anchors": ["src/tokenize.cpp: gendlopen::tokenize", "src/options.cpp: parse_options, format, param", "src/parse.cpp: gendlopen::parse", "src/generate.cpp: open_ofstream", "src/gendlopen.cpp: process_custom_template", "src/main.cpp: main"]}
{"id": "C86", "title": "From a Clang AST file to the listing of its symbols", "statement": "With a Clang AST dump as input, -print-symbols and -ast-all-symbols, the program ends with status 0 and prints exactly the declarations of the dump, each once and in their order: a type definition for every pointer to a function and every array, all objects, all functions with named parameters, and their number; with filters the ones that are selected.", "quantifier": "all dumps in the format of Clang, with or without colours, all filters", "why_tests_cant": "The format of the dump, the types and the parameters are unbounded; each stage is only tested alone.", "anchors": ["src/tokenize.cpp: gendlopen::tokenize, create_typedefs", "src/clang_ast.cpp: gendlopen::parse_clang_ast", "src/lex.l", "src/gendlopen.cpp: print_symbols_to_stdout"]}
{"id": "C87", "title": "Generated C++ API on Windows: all objects share one library", "statement": "In every program of constructors, copies, destructors, member functions and wrapper functions: without a library all symbol pointers are NULL; a pointer that is not NULL was found in the loaded library for its symbol; handles are used only while open and closed once; the queries tell the state; a destructor frees exactly if told so; a path that is returned is that of the loaded library.", "quantifier": "all sequences of operations on any number of objects, all behaviours of the system", "why_tests_cant": "Sequences over several objects sharing static state are unbounded, and the system can fail at any call.", "anchors": ["src/templates/cxx.cpp (GDO_WINAPI): gdo::dl", "src/templates/cxx.hpp: gdo::dl"]}
{"id": "C88", "title": "Generated C++ API on Windows: the file that is opened and its name", "statement": "Loading asks LoadLibraryExA or, with wide characters or conversion, LoadLibraryExW once, with the name given, slashes turned to backslashes, and the flags given; it succeeds exactly if the system returns a handle. filename() and filename_w() return the name as it was given or converted, and asking changes nothing.", "quantifier": "all names, flags, states and behaviours of the system", "why_tests_cant": "Names and the answers of the system are unbounded; the NUL at the end of a converted name is not seen when printed.", "anchors": ["src/templates/cxx.cpp (GDO_WINAPI): load_lib, load_library_ex, convert_string, load, filename, filename_w"]}
{"id": "C89", "title": "Generated C++ API on Windows: loading symbols and refused calls", "statement": "load_all_symbols() succeeds exactly if all pointers are set afterwards; load_symbol() asks once for the name of the symbol in the loaded library, unless it is set already; by name it does the same as by number, for every name, without reading behind a string; refused calls return false and change neither library, nor pointers, nor paths; constructors store their arguments.", "quantifier": "all symbol lists, prefixes, names, states and behaviours of the system", "why_tests_cant": "A symbol missing at any place, any name and any state.", "anchors": ["src/templates/cxx.cpp: load_all_symbols, load_symbol, sym_load, load_filename"]}
{"id": "C90", "title": "Generated C++ API on Windows: error codes and messages", "statement": "After a failing call error() and error_w() return the place of the failure and the text for the code of the call that failed; after a successful one there is no error; in every program the text returned belongs to the code and message stored in that object at the time.", "quantifier": "all failing positions, all sequences of operations on any number of objects, all behaviours of the system", "why_tests_cant": "Stale texts and codes need particular sequences of calls and failures.", "anchors": ["src/templates/cxx.cpp (GDO_WINAPI): save_error, clear_error, set_error_invalid_handle, format_error_message, error, error_w"]}
{"id": "C91", "title": "Generated C++ API on Windows: wrapper functions never call NULL and tell the reason", "statement": "A wrapper function calls the address resolved for its symbol, or it ends the process after showing one message that names the symbol, the library and the reason.", "quantifier": "all symbols, states, modes and behaviours of the system", "why_tests_cant": "Every failing position in every mode.", "anchors": ["src/templates/cxx.cpp: gdo::wrap::not_loaded", "src/templates/cxx.hpp: wrappers"]}
{"id": "C92", "title": "The help texts and the accepted command lines agree", "statement": "Every command line made of options and options in the form the help texts list has the effect of these options; every option, template option, output format, parameter mode and template keyword that is accepted is listed, and every one listed or mentioned in the help text is accepted.", "quantifier": "all command lines, program names, values and template lines; both kinds of systems", "why_tests_cant": "Tests compare a few options; completeness of the text concerns all command lines.", "anchors": ["src/help.cpp: print_help, print_full_help", "src/options.cpp: parse_cmdline", "src/gendlopen.cpp: format, parameter_names, parse_options"]}
{"id": "C93", "title": "Files are opened, closed and written exactly as asked", "statement": "Every file opened by an open_file object is closed exactly once, by close() or the destructor, and standard input is never closed; open() reports success exactly if the file was opened; what is written to the output stream ends up, in order, in the file opened last, or on standard output if none is open.", "quantifier": "all sequences of operations on any number of objects, all paths and all results of opening", "why_tests_cant": "Leaks and double closes depend on the sequence of operations.", "anchors": ["src/open_file.cpp", "src/open_file.hpp", "src/cio_ofstream.cpp", "src/cio_ofstream.hpp"]}
{"id": "C94", "title": "What is written from the built-in templates", "statement": "Every template file becomes a built-in list with the lines of the file, and dumping it gives the file back; processing the built-in templates never fails and ends, and writes for each line of the template file, shown or removed by the parameter mode, the line with the names renamed and every keyword replaced, once for each function, object or symbol it is about; no keyword and no marker is left in the output, and the output files consist of exactly these texts between the fixed parts.", "quantifier": "all symbols read from text files, all prefixes that do not begin with a digit, all formats, parameter modes and output modes", "why_tests_cant": "Tests compile a few generated files; a line that is only wrong for certain symbols or modes is not seen.", "anchors": ["src/templates/*", "src/gen_templates_data.c", "src/substitute.cpp: substitute, substitute_line", "src/generate.cpp: generate, save::header_data, save::body_data"]}
{"id": "C95", "title": "Generated files are well-formed C text", "statement": "Every file written from the built-in templates has all comments, literals, brackets and conditional directives closed in the place where they belong: brackets opened in a branch of a conditional are closed in it, so that they match whatever the platform and the macros are; a C header is so for C and, with its linkage specification, for C++.", "quantifier": "all symbols with closed brackets, all prefixes, formats, parameter modes, output modes and options", "why_tests_cant": "A compiler sees only the branches of one platform, for the symbols of the test.", "anchors": ["src/templates/*", "src/substitute.cpp", "src/generate.cpp: generate, save::header_data, save::body_data, save::header_guard_begin, header_guard_end"]}
{"id": "C96", "title": "The generated C implementation is exactly this code on every platform", "statement": "For every setting of the macros, the tokens that a compiler gets from the generated C implementation (comments removed, conditional directives evaluated) are those of a fixed list of functions, statements and expressions, with the prefix renamed everywhere and with the repeated parts once for each function, object or symbol; no declaration and no name can change how the text is divided into functions, statements and expressions.", "quantifier": "all prefixes, parameter modes, functions and objects whose names are words and whose types have no quotes or comments; all settings of the macros", "why_tests_cant": "Each compilation sees one platform and one set of symbols; a token that is lost or merged for other macros or names is not seen.", "anchors": ["src/templates/c.c", "src/templates/common.c", "src/substitute.cpp: substitute, substitute_line", "src/generate.cpp: save::body_data"]}
{"id": "C97", "title": "The generated C code does what the model of the interface says", "statement": "Executing the generated C implementation statement by statement gives, for every function of the interface, every state and every behaviour of the loader, the return value, state, messages, loader calls and end of the program that are described for the interface; so all guarantees about sequences of calls hold for the generated code itself, not only for a description of it. Two different names of the code stay different with every prefix.", "quantifier": "all prefixes, sets of symbols, macro settings with dlfcn, answers of the loader, states and sequences of calls", "why_tests_cant": "A test runs a few sequences against one loader; the code has paths that depend on what the loader answers at each step and on macros that are fixed per platform.", "anchors": ["src/templates/c.c", "src/templates/common.c", "src/templates/c.h"]}
{"id": "C98", "title": "The generated minimal header does what its model says", "statement": "For every setting of the macros the tokens of the header generated for the format minimal are those of a fixed list of declarations and functions; executing them statement by statement gives, with dlfcn, on AIX and on Windows, for every state, file name and behaviour of the loader, the result, the state and the loader calls that are described for the two functions, for all sequences of calls.", "quantifier": "all prefixes, sets of distinct symbols, answers of the loader, states and sequences of calls", "why_tests_cant": "Tests compile the header for a few symbols and run it against one loader; failures of the loader at each step are not tried.", "anchors": ["src/templates/minimal.h", "src/generate.cpp: save::header_data"]}
{"id": "C99", "title": "The generated plug-in loader does what its model says", "statement": "For every setting of the macros the tokens of the file with the implementation generated for the format plugin are those of a fixed list of functions; executing them statement by statement gives, with dlfcn and on Windows, for every list of file names, every state of the memory and every behaviour of the loader and allocator, the structures in memory, the calls of the loader and the allocations that are described; when loading and releasing return, every library was closed, every block was released once and no other memory was changed; without memory the behaviour is undefined exactly as described.", "quantifier": "all prefixes, sets of distinct symbols, file names, answers of the loader and allocator and states of the memory", "why_tests_cant": "Leaks, out-of-bounds accesses and uses of uninitialised members depend on which file or allocation fails; tests try a few.", "anchors": ["src/templates/plugin.c", "src/templates/plugin.h", "src/templates/common.c: _gdo_call_dlsym, _gdo_call_dlclose"]}
{"id": "C100", "title": "The macros for library file names and the default library stand for the right file", "statement": "In the generated header, as a C preprocessor reads it, PREFIX_LIBNAMEA(name,api) is the string literal with the file name of the library on the system that the predefined macros tell, PREFIX_LIBEXTA its extension; the wide and general macros stand for the same file as long as no word of the name is a macro; the default library given to the tool is the file that PREFIX_DEFAULT_LIBA, PREFIX_DEFAULT_LIBW and PREFIX_DEFAULT_LIB stand for behind common.h, unless they are defined before, and then they keep their definition; no other macros are changed by the file name macros.", "quantifier": "all prefixes, systems, predefined macros, library names, API numbers and forms of the default library", "why_tests_cant": "The meaning depends on the macros of seven systems and on every macro that happens to be defined; a test compiles on one system with one name.", "anchors": ["src/templates/filename_macros.h", "src/templates/common.h", "src/generate.cpp: save::format_libname"]}
{"id": "C101", "title": "The generated C code does what the model of the interface says on Windows, and gives all memory back", "statement": "Executing the generated C implementation compiled for Windows statement by statement gives, for every function of the interface, every state and every behaviour of the system, the return value, state, messages, system calls and end of the program that are described for the interface on Windows; every block of memory requested from malloc or FormatMessage is given back exactly once, with the function that belongs to it, before the function returns or ends the program; no memory is read outside of a block or after it was given back.", "quantifier": "all prefixes, sets of symbols, settings of wide characters, file name conversion, message boxes and automatic loading, answers of the system, names of any length, states and sequences of calls", "why_tests_cant": "Leaks and mismatched free functions have no visible effect in a test; most error paths need a system call to fail.", "anchors": ["src/templates/c.c", "src/templates/common.c", "src/templates/c.h"]}
{"id": "C102", "title": "The macros for the names of symbols stand for the right pointer or wrapper", "statement": "As a C preprocessor reads the generated C code: PREFIX_RAWPTR_symbol stands for the pointer in the handle; a program that includes the header of separate files can use the plain name of a function, which stands for the pointer, or for the wrapper if functions are wrapped or loaded automatically, and the plain name of an object, which stands for the pointer dereferenced; with PREFIX_DISABLE_ALIASING, and within the body file, plain names are left alone; with visible wrappers the names of functions are left alone, and PREFIX_WRAP(symbol), the name that the wrapper is defined with, is the same name that calls use. The same holds for a single file.", "quantifier": "all prefixes, identifiers as symbols, settings of the macros and definitions made before", "why_tests_cant": "A test uses one combination of the macros with one set of names; whether a name is captured depends on all of them.", "anchors": ["src/templates/c.h", "src/templates/c.c", "src/templates/common.h"]}
{"id": "C103", "title": "The generated minimal C++ header does what its model says", "statement": "For every setting of the macros the tokens of the header generated for the format minimal-c++ are those of a fixed list of declarations and functions; executing them statement by statement gives, with dlfcn, on AIX and on Windows, for every state, file name and behaviour of the loader, the state and the loader calls that are described for the two functions; loading returns, or throws LibraryError with the file name (or <NULL> or <EMPTY>) if the library cannot be opened and SymbolError with the name of the first symbol that is missing; releasing throws nothing; this holds for all sequences of calls, whatever was thrown before.", "quantifier": "all prefixes, sets of distinct symbols, answers of the loader, states and sequences of calls", "why_tests_cant": "Tests compile the header for a few symbols and run it against one loader; failures of the loader at each step, and calls after an exception, are not tried.", "anchors": ["src/templates/minimal_cxxeh.hpp", "src/generate.cpp: save::header_data"]}
{"id": "C104", "title": "The macros that the generated code is written with have the values of the configuration", "statement": "As a C preprocessor reads the generated C code: where the code uses them, PREFIX_DECL, PREFIX_OBJ_DECL, _T, PREFIX_XHS, PREFIX_LINKAGE, PREFIX_OBJ_LINKAGE, PREFIX_UNUSED_REF, _countof, PREFIX_SNPRINTF and PREFIX_SET_LAST_ERRNO in the C format, PREFIX_LINKAGE, PREFIX_LOAD_LIB and PREFIX_STRDUP in the plugin format, PREFIX_LINKAGE and _PREFIX_LOAD_SYM in the minimal format and PREFIX_BUFLEN are defined as documented for the configuration: static or not, wide or narrow, Windows API or dlfcn; the text for the symbols and the code in between changes none of them.", "quantifier": "all prefixes, symbols with plain data, macro settings and contents of included headers that leave these names alone", "why_tests_cant": "Each configuration needs its own build; a branch for another platform or a prefix that is renamed wrongly is never compiled in a test.", "anchors": ["src/templates/c.h: 5-19", "src/templates/c.c: 14-91", "src/templates/plugin.c: 10-24", "src/templates/minimal.h: 1-91", "src/templates/common.h: GDO_BUFLEN"]}
{"id": "C105", "title": "The generated header can be included any number of times", "statement": "As a C preprocessor reads it: with an include guard, the header does what the text inside of the guard does, with the guard defined, if the guard was not defined before; if it is defined, the header changes no macro and reports no error, whatever else has been defined or removed in between; so including it again any number of times has the effect of including it once, as long as nothing removes the guard, and text that does not mention the guard does not. Text in front of the guard or of #pragma once has no effect. With #pragma once the header does what the text behind it does.", "quantifier": "all prefixes, output names, symbols, options and contents; all macros defined before and between; any number of inclusions", "why_tests_cant": "Tests include the header once or twice with one set of macros; a conditional that is closed in the wrong place shows only with other macros.", "anchors": ["src/generate.cpp: save::header_guard_begin, save::header_guard_end, save::line_directive, save::note"]}
{"id": "C106", "title": "The generated header refuses a configuration that cannot work, and accepts any other", "statement": "As a C preprocessor reads the generated C header: if automatic loading is asked for (PREFIX_ENABLE_AUTOLOAD or PREFIX_ENABLE_AUTOLOAD_LAZY) and there is no default library for the kind of characters in use, reading the header ends with an error, whatever follows; if parameter names were skipped it does so for automatic loading and for wrapped functions. Any other configuration is accepted: PREFIX_ENABLE_AUTOLOAD is defined behind common.h exactly if either form was asked for, PREFIX_DEFAULT_LIB exactly if there is a library, only the names of a fixed list are changed, and behind the whole header the names of symbols stand for the pointer, or for the wrapper if functions are wrapped or loaded automatically. With a default library given to the tool, automatic loading is never refused.", "quantifier": "all prefixes, symbols, options and extra text in front of the templates; all macros defined before, with and without an include guard", "why_tests_cant": "Tests compile a few configurations; the condition depends on eleven macros, three settings for parameter names and everything that the text in front defines.", "anchors": ["src/templates/common.h:385-415", "src/templates/c.h:60-330", "src/generate.cpp:297-400"]}
{"id": "C107", "title": "What the whole generated header means follows from what the user defines", "statement": "As a C preprocessor reads the whole header that a successful run writes in C (separate files or a single file), from symbols of a text file: the texts that the tool itself puts in front of the templates (file name macros, PREFIX_SEPARATE, the default library, the common prefix, the marks of variadic functions, includes and typedefs) are accepted and define only the names of a fixed list. So the header is refused exactly if what the user defines (before it, or with -D), together with the default library given to the tool, is a configuration that cannot work; otherwise it is accepted, and the names of symbols stand for the pointers or wrappers that the user's definitions ask for.", "quantifier": "all command lines, symbols of text files, prefixes, extra includes and definitions of whole lines, and all macros defined before", "why_tests_cant": "Tests compile the header with a few combinations of options and macros; here the meaning is independent of the text in between for all of them.", "anchors": ["src/generate.cpp:60-300", "src/generate.cpp:297-400", "src/templates/common.h:1-415", "src/templates/c.h:60-330"]}
{"id": "C108", "title": "The generated C++ code: what the names of symbols stand for, and what the whole file means", "statement": "As a C++ preprocessor reads the generated C++ code: PREFIX_RAWPTR_symbol stands for prefix::PREFIX_PTR_symbol; behind the header of separate files, or behind a single file, the plain name of a function stands for that pointer, or for the wrapper if functions are wrapped or loaded automatically, the plain name of an object for what its pointer points to; nothing is renamed if aliasing is disabled or in the body file, and no function if the wrappers are visible. So for the whole file that a successful run writes in C++ from symbols of a text file: it is refused exactly if what the user defines, with the default library, is a configuration that cannot work; otherwise the names stand for what the user's definitions ask for.", "quantifier": "all command lines, symbols of text files, prefixes, extra includes and definitions of whole lines, and all macros defined before", "why_tests_cant": "Tests compile the header with a few combinations of options and macros; here the meaning is independent of the text in between for all of them.", "anchors": ["src/generate.cpp:60-400", "src/templates/common.h:1-415", "src/templates/cxx.hpp:420-515", "src/templates/cxx.cpp:1074-1087"]}
{"id": "C109", "title": "The generated files in the minimal formats: what the names of symbols stand for, and what the whole file means", "statement": "As a preprocessor reads the file that a successful run writes for the format minimal or minimal-c++, from symbols of a text file, included for the first time: it is accepted whatever the user has defined, and behind it, unless PREFIX_DISABLE_ALIASING is defined, the plain name of a function stands for the pointer in the handle (prefix_hndl.PREFIX_PTR_symbol) or in the namespace (prefix::PREFIX_PTR_symbol), and the plain name of an object for what that pointer points to; with PREFIX_DISABLE_ALIASING the file defines no macro with the name of a symbol. The text of the tool in front of the template and the rest of the template define none of the names that matter.", "quantifier": "all prefixes, lists of functions and objects, settings, extra includes, typedefs, default libraries, definitions by the user and tables of macros", "why_tests_cant": "The names of the symbols, the prefix and the definitions come from the user; a test sees a few of them, and what a macro means depends on every line in front of it in every configuration.", "anchors": ["src/templates/minimal.h", "src/templates/minimal_cxxeh.hpp", "src/generate.cpp", "src/substitute.cpp"]}
{"id": "C110", "title": "The generated files leave all other macros alone", "statement": "As a preprocessor reads the header or single file that a successful run writes, in any of the five formats: the file is refused with an error for the configurations of C106 and accepted otherwise, and behind it every macro whose name does not begin with PREFIX_ or _PREFIX_ and is not the name of a symbol is what it was behind the definitions given with -D, so what it was before the file if there are none: neither defined, nor removed, nor changed. In the formats c, c++ and plugin there are 38 names of flags and system macros (RTLD_*, LOAD_*, _T, _countof and a few others) that may be defined; the minimal formats have no exception. The body file of separate output is always accepted and leaves the same macros alone.", "quantifier": "all names, prefixes, formats, lists of functions and objects, settings, extra includes, typedefs, default libraries, definitions by the user and tables of macros", "why_tests_cant": "A test can compare the macros in front of and behind the file for a few configurations; a definition in one branch of the many conditionals shows only in the configurations that take it.", "anchors": ["src/templates/common.h", "src/templates/common.c", "src/templates/c.h", "src/templates/c.c", "src/templates/cxx.hpp", "src/templates/cxx.cpp", "src/templates/plugin.h", "src/templates/plugin.c", "src/templates/minimal.h", "src/templates/minimal_cxxeh.hpp", "src/generate.cpp"]}
{"id": "C111", "title": "The body file of separate output, compiled with its header", "statement": "As a preprocessor reads the body file that a successful run writes for separate output in C or C++, with the header of the same run in place of the line that includes it: if what the user defines is a configuration that cannot work, the header is refused; otherwise the whole text is accepted, no function and no object of the library has its name turned into a macro by it (so the code of the body, and anything behind it, sees the plain names), and PREFIX_RAWPTR_symbol stands for the pointer of the symbol. The line that includes the header names exactly the header file that was written.", "quantifier": "all command lines, symbols of text files, prefixes, extra includes and definitions of whole lines, and all macros defined before", "why_tests_cant": "The body is compiled by tests for a few libraries and definitions; here header, mark and body are composed for all of them, in every configuration.", "anchors": ["src/generate.cpp:60-400", "src/templates/common.h:1-415", "src/templates/c.h", "src/templates/c.c", "src/templates/cxx.hpp", "src/templates/cxx.cpp"]}
{"id": "C112", "title": "The wrapper functions of the generated C file", "statement": "As a preprocessor reads the generated C header, or the generated single C file, in a configuration with wrapped functions or automatic loading that is not refused: for every function it reaches the definition of its wrapper, with all conditionals around it true, and there the macros that the definition is written with mean what they should: without PREFIX_WRAP_VISIBILITY the wrapper is static inline and has the name PREFIX_WRAP_symbol, with it the definition begins with PREFIX_WRAP_VISIBILITY and has the plain name of the symbol (so the name is not replaced); PREFIX_RAWPTR_symbol, that the wrapper calls with its own parameters and whose result it returns unless it returns void, stands for the pointer of that symbol; the check in front of the call is the one with that pointer, its index and its name; and between the check and the call the macro PREFIX_HOOK_symbol is the one that the user defined, or otherwise one with any arguments that calls the empty function _prefix_noop. For a function whose parameters end in ... (and only for those) this is the definition that passes them on with __builtin_va_arg_pack if PREFIX_BUILTIN_VA_ARG_PACK is defined there, and otherwise the macro PREFIX_WRAP_symbol.", "quantifier": "all prefixes, lists of functions and objects with distinct names, types, parameters, settings with parameter names, and all macros defined before", "why_tests_cant": "A test compiles wrappers for a few functions; whether a definition is reached and what its macros mean depends on all text in front of it, in every configuration.", "anchors": ["src/templates/c.h:60-270", "src/templates/common.h:1-415"]}
