# Formal model of gendlopen: design

Target: the source text in `/repo` (gendlopen, a C/C++ source generator that
turns a list of declarations into a dynamic loader).  The code is read as text
and is not built or run; the model is written by hand from it.

## Conventions

* Byte strings are `List Char` (`Gdo.Str`); a byte is the character of the same
  code.  Theorems quantify over all lists of characters.
* Every modelled C/C++ function is a total Lean function.  Undefined behaviour
  (out of bounds access, use after free, NULL dereference) is a separate outcome
  of the model, never a default value.
* Loops that may diverge in C++ (`utils::replace`) are modelled by a step
  function and a fuelled iteration, and termination/divergence are theorems.
* The environment (dynamic loader, file system, allocator, clock) is a parameter
  of the model and is universally quantified in the theorems.
* Files: `Verif/Model/*` (the code), `Verif/Spec/*` (independent
  specifications), `Verif/Lemmas/*` (helper lemmas), `Verif/Props/*` (property
  theorems with their non-vacuity examples).

## Trusted base

* Lean's kernel, and for each theorem at most the axioms `propext`,
  `Classical.choice`, `Quot.sound`.
* The hand translation from C/C++ to Lean (each definition cites file and lines).
* The specifications in `Verif/Spec` and the statements in `Verif/Props`.

## What is modelled and what is not

Modelled, function by function (the file header of each module states its
simplifications):

| code | module |
|---|---|
| `lex.l` (all rules and start conditions, flex matching, the error buffer) | `Model/Lex`, `Model/ScanError` |
| `tokenize.cpp` | `Model/Tokenize` |
| `check_pattern.cpp`, `parse.cpp`, `parameter_names.cpp`, the filter in `gendlopen.cpp` | `Model/Parse` |
| `clang_ast.cpp` | `Model/Ast` |
| `utils.cpp`, `utils.hpp` | `Model/Utils` |
| `data.cpp`, `gen_templates_data.c` (reading, dumping, embedding templates) | `Model/Template`, `Model/Dump` |
| `substitute.cpp`, `process_custom_template` | `Model/Substitute` |
| `gendlopen::prefix`, `replace_prefixes` | `Model/Prefix` |
| `generate.cpp` | `Model/Generate`, `Model/CommonPrefix` |
| `opt_parser.h`, `options.cpp`, setters of `gendlopen.cpp` | `Model/Options` |
| `main.cpp`, the opening of the input in `tokenize.cpp`, texts of the error messages | `Model/Program`, `Model/Main` |
| `help.cpp` (both texts, the program name) | `Model/Help` |
| `open_file.cpp`, `cio_ofstream.cpp` | `Model/FileIO` |
| the text of all the files in `templates`, as compiled into the program | `Model/Builtin` |
| `templates/c.c`, `c.h`, `common.c` for dlfcn | `Model/Runtime` |
| `templates/c.c`, `common.c` as C code, all platforms (C96) | `Model/CProg` |
| the C library functions and macros which that code uses with dlfcn (C97) | `Model/CSystem` |
| the C library and Windows functions, macros and the memory which that code uses on Windows (C101) | `Model/CSystemWin` |
| `templates/minimal.h`, `plugin.c` as C code, all platforms (C98, C99) | `Model/CProgOther` |
| `templates/minimal_cxxeh.hpp` as C++ code, all platforms (C103) | `Model/CProgCxx`, `Model/CSystemCxxeh` |
| the structures, macros and library functions which that code uses with dlfcn | `Model/CSystemMin`, `Model/CSystemPlug` |
| the automatic loading of `templates/c.c` with several threads | `Model/Threads` |
| `templates/cxx.cpp`, `cxx.hpp` for dlfcn | `Model/Cxx` |
| `templates/cxx.cpp`, `cxx.hpp` for Windows | `Model/CxxWin` |
| `templates/minimal.h`, `minimal_cxxeh.hpp` for dlfcn, AIX and Windows | `Model/Minimal` |
| `templates/plugin.c`, `plugin.h` for dlfcn and Windows | `Model/Plugin` |
| `_gdo_fullpath_procmap` of `templates/common.c` | `Model/Procmap` |
| the library path of `templates/c.c`, `common.c` on AIX | `Model/Aix` |
| `templates/c.c`, `c.h`, `common.c` for Windows | `Model/Win` |

Not modelled:

* `opt_parser++.hpp`, the resource and manifest files.
* `lex.yy.c`: the file flex generated; the model follows `lex.l` with the documented
  semantics of flex.
* The C and C++ libraries, `std::regex` and `std::filesystem`: their documented
  behaviour is written down in the model where it is used.
* The C preprocessor and the compiler that read the generated code: the models of
  the templates are those of the preprocessed text for one configuration. For `c.c`,
  `common.c`, `minimal.h` and `plugin.c` the conditional directives and the meaning of the
  code are specified (C96-C99, C101); macros are not expanded there, their values are written
  down in `Model/CSystem`, `Model/CSystemWin`, `Model/CSystemMin` and `Model/CSystemPlug`; that
  these macros are defined that way in the templates is C104, reading the definitions as
  functions of the model is not. For
  `filename_macros.h`, the definitions of the default library, `common.h` and the aliases of
  the symbols the definition and expansion of macros is specified too, with the operator `##`
  (C100, C102, C104-C112).
* The branches of the templates for dlfcn-win32, the C++ branches for AIX.
* Memory exhaustion, except in the plug-in loader; read and write errors; signals.

## Plan per property

| id | modelled | proof |
|---|---|---|
| C01-C04 | `lex.l` as longest-match/first-rule scanner with start conditions | progress measure, case analysis of rules; C03, C04 are violated: negation with witness and a `_partial` theorem |
| C05-C06 | `tokenize_stream` as a fold over tokens | induction over statements |
| C07-C10 | `check_pattern.cpp`, `parse.cpp` with checked indexing (UB outcome) | bounds reasoning; print/parse round trips; C09 is violated (negation + partial) |
| C11-C13 | `copy_parameters`, `parameter_names.cpp` | induction over tokens/parameters |
| C14-C16 | `gendlopen::parse` filter, `get_declarations` | list membership; C14/C16 violated for AST (negation + partial) |
| C17-C19 | `tokenize.cpp` parentheses, formatting, typedefs | measures, invariants |
| C20-C22 | `get_lines`, `load_from_file`, `save_to_file`, `gen_templates_data.c` | round trips by induction |
| C23-C28 | `utils::replace`, `substitute.cpp` | refinement of sequential to simultaneous substitution, line counting; C25, C26, C28 violated in corner cases (negation + partial) |
| C29-C30 | `replace_prefixes`, `to_upper`, `to_lower` | scanner equivalence; C29 violated for standalone names (negation + partial) |
| C31-C32 | `get_common_prefix`, `gdo_load_symbol_name` | induction, cross-component theorem |
| C33-C35 | `open_ofstream`, `generate`, `load_template` over abstract file system / storage | invariants; C34, C35 violated (negation + partial) |
| C36, C40, C41 | `format_libname`, `add_def`, `add_inc`, header guards | case analysis; C36 violated (negation + partial) |
| C37-C39 | `opt_parser.h`, `options.cpp` | induction over argv |
| C42-C48, C63, C64 | generated C API as state machine with loader oracle | invariants over all call sequences; C46, C48 violated in corner cases |
| C65-C67 | C++ members, one call in any state | case analysis of every member; C65, C66 violated (negation + partial) |
| C49-C50 | minimal templates | same; C50 violated on repeated loading |
| C51 | C++ class with shared static state and several objects | same; stale path violation |
| C52 | plug-in template with allocator and loader oracle | induction over files |
| C53 | interleaving model of the automatic loader, one shared access per step | witness schedules for the violation; invariants over all schedules; a thread alone refines the sequential model |
| C54 | `check_pattern.cpp` | inversion of the acceptance functions to an independent grammar |
| C68 | composition of all stages of `gendlopen::tokenize` for text input | composition of the stage theorems over one list of declarations |
| C69 | `sscanf` and `getline` loop over the text of the memory map | the kernel's format as an independent printer, print/scan lemma; violated for numbers with hexadecimal letters (negation + partial) |
| C70 | buffer of `ld_info` records as a partial map from offsets, walked with fuel | induction over the chain of records |
| C71-C74 | `c.c`, `c.h`, `common.c` with `GDO_WINAPI`: a state machine as for C42-C45, C64, the system's answers being arbitrary functions of time | invariants kept by each function (`Kept`, `KeptRet`), induction over the calls |
| C75-C76 | error buffer, formatted message and last error code of the same model | exact message of each failing call; the formatted message is current in all reachable states; C75 violated (negations + partial) |
| C77 | wrapper functions of the same model, message boxes included | case analysis; the reason of a failed load is lost (negation + partial) |
| C78-C79 | output paths, added definitions, header and body of a whole run | decomposition of a path at its last slash and dot; the added text as a list of lines |
| C80 | `print_symbols` as a text, read again by the scanner and the parser models of C68 | the text as chunks of comments, typedefs and declaration lines; a relation between texts and token lists (`Spells`) that formatting keeps; violated for typedefs (negation + partial) |
| C82 | the scanner with the line number of every token (`runLines`), the error buffer as a value | every match keeps the invariant that the state counts the newlines of the text read so far; the run over a source text with any tail behind it; violated for bytes above 127 (negation + partial) |
| C81 | `main` as a function from arguments, world and file system to exit status, message and file system, composed of the models of all steps | every exit comes from a prefix of the arguments that has a meaning; frame lemmas of C33; inversion of a successful or endless run of `generate`; violated for failing templates and uncaught exceptions (negations + partial) |
| C83 | the filter of C15 and `sort_dedup` | insertion sort and removal of neighbours give the one strictly increasing list with the same members; violated for AST input (negation) |
| C84 | scanner, parser, parameter names, typedefs and formatting, on any text | every stage keeps the set of characters; violated for numbers and keywords as names (negation + partial) |
| C85 | `main` on each failing step | the failing step is computed from its cause, the steps in front of it succeed; message and state are exact |
| C86 | `tokenize` on a dump, `create_typedefs`, the listing | composes C57 and C16 with the first token of a dump; a trimmed type has its first `(*)` or `[` where the type has it; violated for nested and constant function pointers (negations + partial) |
| C87 | C++ code for Windows: objects, static handle and pointers, system oracle | the elementary steps of C59-C62 with two kinds of paths, invariants over all programs; the stored path is stale when another object frees (negation + partial) |
| C88 | names of either type of characters, `convert_string` | the call that is made is computed; converted names end in a NUL and `filename_w()` changes what `load()` does (negations + partial) |
| C89 | loading of symbols in the same model | induction over the symbols; search by name from C32 |
| C90 | code, message and formatted text of each object | exact code and message per failing call; invariant over all programs that formatted texts are current; four violations |
| C91 | `not_loaded` and wrappers of the same model | case analysis; the failed load's reason is lost, with wide characters the library is not named (negations + partial) |
| C92 | the help texts as lists of lines | a small reader of help lines gives the listed options; C38 for their effect; violated for `-?`, values as next argument, `-name` (negations + partials) |
| C93 | `open_file` objects over a C library that records open files, `cio::ofstream` over a file system | ownership invariant over all programs; what is written computed from the history; violated for copies, `is_open` behind `close` and lost writes (negations + partials) |
| C94 | the lines of every template file, embedded and compiled | a specification of what a line stands for, by splitting it into words, keywords and other characters; renaming and replacement of C25/C29 for all lines that pass a decidable test; the kernel evaluates the test on every line of every template; composition with C33/C78/C81 |
| C95 | a scanner for comments, literals, brackets and conditional directives; the texts of C94 | the scanner is run on every template with sets of states, where a keyword stands for any text with closed brackets (soundness proved, evaluated by the kernel on every template); the fixed parts; composition with C33/C81; violated for unmatched brackets in declarations (negation + partial) |
| C96 | a scanner for C tokens, an evaluator for conditional directives, the grammar of the part of C that the templates use (`Spec/CLex.lean`, `Spec/CLang.lean`); the code of `common.c` and `c.c` as trees (`Model/CProg.lean`) | the scanner and the evaluator are run on the template texts, where a keyword stands for any word or type (soundness proved); equality with the tokens of the trees is evaluated by the kernel for all settings of the macros that a part tests (a case distinction over all values, no sample); the trees of a template are instantiated like its text (induction over the grammar). Macros are those in force when a condition is evaluated; `#define` and `#include` lines give no tokens |
| C97 | a step-by-step semantics of the C trees of C96 (`Spec/CSem.lean`: statements with `return`, `break`, fall-through in `switch`, calls, `exit`, undefined behaviour); the system functions and the values of the macros (`Model/CSystem.lean`) | for every function of the code: executing its tree gives what the model of C42-C48 says, from any state (symbolic execution with rewriting, induction over the symbols for the repeated parts); functions are linked by rank, so that calls are replaced by their proven results; then all interface functions, sequences of calls and whole programs (induction over the calls); the renaming of the names is injective on the names of the code (suffix test evaluated by the kernel on all pairs, proven sound for all prefixes). Integers are unbounded, `_gdo_fullpath_procmap` counts as a system function, dlfcn without Windows and AIX; the wrapper functions of `c.h` are written down in the statement |
| C98 | the tree of `minimal.h` (`Model/CProgOther.lean`), the structure, macro and loader functions it uses (`Model/CSystemMin.lean`) | text as in C96; execution by the semantics of C97, induction over the symbols for the repeated parts and over the sequence of calls |
| C99 | the tree of `plugin.c` (`Model/CProgOther.lean`); a memory of structures and arrays, allocator and loader (`Model/CSystemPlug.lean`); members, loops and heap objects in `Spec/CSem.lean` | text as in C96; execution: loop invariant for the two `for` loops (induction over the file names, the part of the list done and the part to do), induction over the symbols inside; `Holds` links the memory to the list of the model; the end-to-end theorem uses C52 |
| C100 | `Spec/CMacro.lean`: tokens of the preprocessor, directives with what they define (`after`), expansion of macros with hide sets (`expand`), the file names of seven systems; the texts are those of C94 and C36 | the scanner commutes with replacing the prefix, so the definitions are evaluated once for the template with the Boolean tests left open (a decision tree checked by the kernel) and hold for all prefixes; `common.h` in five segments, of which three are shown to change none of 16 names; the expansion for all names by induction over their characters; the wide and general macro expand their arguments first: negation with witness and `_partial`. Missing: text before the file name macros is only taken as the macros it defines, the text between must be `Harmless` |
| C101 | the semantics of C97; Windows functions, macros and a heap of blocks with the function they are to be freed with (`Model/CSystemWin.lean`) | as C97: symbolic execution of each function from any state and heap, loops over the file name by induction, functions linked by rank with a bound on the length of names that is chosen per program (`C101_enough`); the heap after each call is equal to the heap before. `malloc` and `_tcsdup` always succeed; `mbstowcs_s` gives the same answer twice and never an empty string for a non-empty name |
| C102 | as C100, with `##`: the lines of `c.h` and `c.c` that define `RAWPTR_` macros, `FUNC_ALIAS` and the names of functions and objects, and the lines of `common.h` about `GDO_WRAP`; the texts in between are arbitrary as long as they leave those names alone (`Harmless`) | the lines for symbols are scanned symbolically for arbitrary identifiers, the lines around them are evaluated once per answer of the conditionals; the table of macros behind each part is computed, and the expansion followed step by step with hide sets. `Props/CMacroFile.lean` shows that the generated text in between is `Harmless`, for the whole of `c.h`, `common.c` and `c.c` as `Tmpl.fill` instantiates them: the lines of the templates are walked once with the prefix and the data of symbols left open (`Lemmas/CMacroWalk.lean`), data of symbols must be free of quotes, `#`, `/`, `\` and line breaks, as it is for symbols from a text file (C102_text). Assumed: the headers that are included define none of the names |
| C103 | the tree of `minimal_cxxeh.hpp` (`Model/CProgCxx.lean`); the semantics of C97 with `throw` (an outcome of its own with the class and the message, which leaves the frames of the calls it passes), `::f(…)`, `reinterpret_cast` and functions without captures declared in a function (`lift`: as good as functions of the program, since the name is used once) | as C98; the values of `reinterpret_cast<…>` between angle brackets need a type that does not begin with `<` or `=` (`Named.type`), which holds for everything read from text input (`C96_named`) |
| C104 | the preprocessor semantics of C100/C102; the definitions of `c.h`, `c.c`, `plugin.c`, `minimal.h` and of `GDO_BUFLEN` in `common.h` as lists of definition lines that depend on the macros of the configuration | the lines that define macros are evaluated for every combination of the tested macros and carried over to all prefixes by renaming (`after_seg`); the text around them, with arbitrary symbols, leaves the macros alone (`Harmless`, by the walk of C102) |
| C105 | the preprocessor semantics of C100; the whole text of the header (`headerText`) as a part in front, a guard and a part inside | the text inside of a used group runs as it does outside (`runLines_base`), text that runs somewhere is skipped in a group that is not used (`runLines_off`, both by induction over lines and nesting); the note, the license and `#line` directives are shown to have no effect |
| C106 | the preprocessor semantics of C100; the whole of `common.h` with its two `#error` lines, then `c.h`, then the whole header of the C format; `refused`: the configurations that must be refused, said in terms of the macros defined in front | `#error` in a used group ends the run, whatever group it is in (`run_tail`); every name that is defined by `common.h` is in an explicit list, so the others keep their meaning (`runLines_keeps`); with C102 and C105 this gives the whole header |
| C107 | the preprocessor semantics of C100; the text of the header in front of the templates as the model of the generator writes it (C93, C94), then C106 | each piece of the text is a step that changes only listed names (`Moves`), steps compose; what the user defines is kept as a hypothesis on the text of `-D` alone, so that no text of a template appears in the statement for the whole program; headers that are included must leave alone the names of the configuration and of the symbols |
| C108 | the preprocessor semantics of C100; the aliases of `cxx.hpp` and `cxx.cpp`, then the whole templates and the text in front of them (C106, C107 hold for all formats) | as for C102, C106 and C107; the end of `cxx.hpp` is that of `c.h`; violated for a symbol with the name of the namespace and for objects without parentheses: negation with witness |
| C109 | the preprocessor semantics of C100; the aliases at the end of `minimal.h` and `minimal_cxxeh.hpp`, with one flag for the two templates, then the whole template and the text of the tool in front of it | as for C102 and C107; the text in front of the aliases is harmless for the names used (the check of all lines of CMacroWalk); violated for a symbol with the name of the handle or namespace and for objects without parentheses: negation with witness |
| C110 | the preprocessor semantics of C100 on the whole text of every file of every format, header and body | a name that no directive of a text can define is the same behind it (`Keeps`), for each template by the check of all its lines (CMacroWalk) and the tables of the parts that define names of symbols; composed with the text of the tool (C107), `common.h` (C106) and the guard (C105) |
| C111 | the preprocessor semantics of C100 on one text: the body file with the header in place of its `#include` line | the text of the body file is split at the `#include` line (`body_split`), the mark PREFIX_INCLUDED_IN_BODY is carried through the header (C105, C107), so that the header defines no names of symbols (C102); the body is composed behind it (C107, C108) |
| C112 | the preprocessor semantics of C100 up to a place in the text of the C header | the template is cut at the lines of one wrapper (`block_split`, `mid_split`); the lines in front of it are walked through for all symbols, showing which names they keep (C102, C104), with the conditionals around the place open and true; the macros of `common.h` are followed to that place (`common_wrap`), and the ones in the definition are expanded there; the lines for the hooks are cut in the same way at the function (`hooks_state`) |
| C55-C56 | scanner and statement splitting | violated for declarations that begin with `struct`/`union`/`enum` and for comments in directives (negations + partials) |
| C61 | `create_template_files`, `save_to_file` over the file system of C33 | frame lemma; violated (negation + partial) |
| C62 | `print_lineno`, the header text as a concatenation | newline counting; uses C25 |
| C57-C59 | AST states of `lex.l`, `clang_ast.cpp` (the regular expressions as functions on lines) | scanner steps on every valid line, fold over the declarations; C57-C59 violated (negations + partials) |

## Recorded disagreements between code and properties

Each has a negation theorem with a concrete witness and a `_partial` theorem
stating what holds instead.

| id | disagreement |
|---|---|
| C03 | a `//` comment continued by a backslash onto a blank line swallows the line after it |
| C04 | `%option` directly before the newline, and a backslash glued to an option word, are not read as option lines |
| C08, C09 | in parenthesized functions and in function pointers only the first tokens of a several word return type are handled, e.g. `unsigned int (f)(void)` |
| C12 | for a variadic function the list of call arguments contains `...` |
| C13 | a nameless parameter with a type of several words (`unsigned int`) is read as having the name `int` |
| C55 | `struct foo *bar(void);` is skipped without an error |
| C56 | a comment over several lines that begins in a directive, and `"/*"` in a string literal of a directive, are not handled as in C |
| C14 | Clang AST input has no duplicate check: a repeated declaration is generated twice with `-ast-all-symbols` or `-P` |
| C16 | Clang AST input: a symbol that is listed with `-S` and also begins with a `-P` prefix is reported as not found |
| C17 | parentheses are removed when the neighbours are doubled, whether or not they enclose the same text: `((A)*B)*((C))` loses its balance |
| C57 | AST functions that return a function pointer get the wrong return type; a parameter `void (**)(int)` is declared wrongly |
| C58 | AST variadic functions lose the `...` |
| C59 | AST functions declared with a type name are taken off the `-S` list but not generated, without an error |
| C20 | a continuation mark between CR and LF cannot be told from one before CR LF |
| C21 | a dumped template that is loaded again has an additional empty entry, with `-line` also a second `#line` entry |
| C22 | a template with a final newline has one entry more when read at run time than when embedded; `\xNN` followed by a hexadecimal digit does not compile; NUL and a final `@` are embedded differently |
| C29 | the second `gdo` in `gdo,gdo` keeps its name; a prefix that begins with a digit eats the character in front of an identifier; an empty prefix renames `GDO_gdo_x` twice |
| C31 | for a single symbol the common prefix is empty |
| C23 | data of a symbol that contain a keyword are replaced again; `%%args%%type%%func_symbol%%` is taken for `%%args`, `%%type%%`, `func_symbol%%` |
| C25 | an entry that is dropped because there are no functions or objects is counted wrongly; newlines in the data are not counted |
| C26 | the directive written for a dropped entry is one too low; templates loaded with `-templates-path` have a blank line behind the `#line` line, so that the numbers are one too high |
| C28 | a type that contains the keyword it replaces, as Clang prints for a nameless structure in a header named `%%obj_type%%.h`, makes the replacement loop endless |
| C80 | the typedefs that `-print-symbols` lists for function pointers and arrays are skipped when the listing is read again, so that the object types are not defined |
| C82 | the message of a byte above 127 (an accented letter in UTF-8) passes a negative value to `isgraph` where `char` is signed: undefined behaviour |
| C81 | with `-force` a run that fails in a template has already replaced the output file; an output path that cannot be removed ends the program by an exception that is not caught |
| C83 | see C16: with AST input a symbol that exists can be listed as missing |
| C84 | `int 3;` and `unsigned int;` are accepted as objects named `3` and `int` |
| C86 | a variable of type `int (*(*)(int))(int)` makes the whole run fail; `int (*const)(void)` is listed as `int (*const)(void) x;` |
| C38 | a second input file is ignored with a warning, it is not an error |
| C60 | the message about a missing argument of `--format` names the option `-fformat` |
| C34 | with separate output the header is written before it is known that the body exists |
| C35 | the lists for license and file name macros are taken before the templates are loaded, so the built-in ones are written; with separate output the license list is used after its storage was released |
| C36 | `-library=name` loses every name that begins with `n`, `e` or `a` (either case) and has no mode; `api:x` without a second colon is lost, and `api:v:x` with a CR or LF in it; `L"x"` is quoted again; backslashes are not escaped |
| C40 | `-D=FOO` is ignored without a message |
| C61 | `-dump-templates` replaces existing files |
| C46 | `gdo_library_path` fails without a message when the path does not fit into the buffer; `gdo_load_symbol` fails without a message when `dlsym` returns NULL and `dlerror` nothing |
| C48 | when automatic loading cannot open the library, the loader's reason is replaced by `no library was loaded` |
| C63 | the library's name is a part of the format string of the message: `lib%n.so` is undefined behaviour, `a%%b` is shown as `a%b` |
| C48 | the same in the C++ code (`C48_cxx_violated`); C63 holds there (`C63_cxx`) |
| C49 | minimal templates: after a second call that cannot open the library, the symbol pointers of the library that was replaced stay set; a call with an empty name returns an error and leaves everything loaded |
| C50 | minimal templates: loading twice loses the first handle, it is never closed |
| C51 | a `gdo::dl` object answers with the path it stored although another object has replaced the library meanwhile |
| C52 | the results of `malloc` and `calloc` are not checked: NULL is dereferenced |
| C53 | two threads that call wrapped functions for the first time open the library twice; a call can go through NULL, and a handle can be closed twice, while another thread's automatic loading fails |
| C65 | the message of a failed `dlinfo` stays although `dladdr` succeeded afterwards |
| C66 | `load_symbol` and others fail without a message when the loader gives none |
| C75 | Windows: loading while a library is loaded and a failure of `atexit` leave code 0, so the message ends in the text for success; when a file name cannot be converted, message and code of that failure are replaced by the file name and whatever `GetLastError` was left |
| C77 | Windows: when the library cannot be opened, wrappers with automatic loading show `no library was loaded` with code 6 instead of the reason |
| C87 | Windows, C++: `library_path()` returns a stored path although another object has freed the library |
| C88 | Windows, C++: `filename()` of a wide name and `filename_w()` of a narrow name end in a NUL character; after `filename_w()` a narrow name is loaded by `LoadLibraryExW` |
| C90 | Windows, C++: "library already loaded" has code 0 and is followed by the text for success; a name that cannot be converted gives the last code of the system, even 0; a missing symbol is not named; `error()` about a wide name has a NUL in front of the reason |
| C91 | Windows, C++: if the library cannot be opened the message is that for code 6; with `GDO_DEFAULT_LIB` of wide characters an address is shown in place of the name (from C++20 on it does not compile) |
| C92 | `-?` is accepted but not listed; a value may be the next argument, which no help text says; the full text mentions `-name`, which is unknown |
| C93 | copying an `open_file` closes its file twice; `is_open()` is true behind `close()`; a failed write to the output is never reported |
| C95 | brackets in declarations are not checked: `void f(int a));` is accepted, and every file written for it has the unmatched bracket |
| C100 | `GDO_LIBNAMEW`, `GDO_LIBNAME` and the wide default library expand the name before it is made a string: `GDO_LIBNAME(linux,1)` is `lib1.so.1` with GCC in its default mode, which predefines `linux` |
| C102 | `c.c` tests `GDO_WRAP_IS_VISIBLE`, which is defined nowhere, where all the other templates test `GDO_WRAP_VISIBILITY`: in a single C file with visible wrappers `foo` stands for `GDO_WRAP_foo`, which does not exist |
| C102 | the macros for objects have no parentheses: `bar[1]` is `*(gdo_hndl.GDO_PTR_bar[1])`, `bar++` and `bar.x` are wrong likewise |
| C102 | the wrapper of a function called `FUNCTIONS`, `VISIBILITY`, `IS_VISIBLE` or `DECL` has the name of a macro of the configuration, `GDO_WRAP_FUNCTIONS`: `GDO_WRAP(FUNCTIONS)` expands to nothing where wrappers are asked for with `#define GDO_WRAP_FUNCTIONS` |
| C108 | a symbol with the name of the prefix, function `gdo` with the prefix `gdo`: the macro for it renames the namespace too, `foo` becomes `GDO_FUNC_ALIAS(gdo)::GDO_PTR_foo` |
| C108 | the macros for objects have no parentheses in C++ either: `bar[1]` is `*gdo::GDO_PTR_bar[1]` |
| C109 | a symbol with the name of the handle (`gdo_hndl`) or of the namespace in the minimal formats: `foo` becomes `gdo_hndl.GDO_PTR_gdo_hndl.GDO_PTR_foo` |
| C109 | the macros for objects have no parentheses in the minimal formats: `bar[1]` is `*gdo_hndl.GDO_PTR_bar[1]` |
| C112 | a function `DECL` with variable arguments, without `__builtin_va_arg_pack`: the macro for its wrapper is `GDO_WRAP_DECL` (c.h 257), which is also the macro that the definitions of all following wrappers begin with (C112_decl_violated) |
| C112 | with GDO_WRAP_VISIBILITY and without `__builtin_va_arg_pack` the wrapper of a function with variable arguments is still the macro `GDO_WRAP_symbol` (c.h 257), and the alias for its plain name is left out (c.h 295): the plain name is not defined by the generated file |
| C112 | with GDO_WRAP_VISIBILITY and separate output the wrappers are no longer static but still defined in the header (c.h 263-268, common.h 227-236): two translation units that include it define the same functions |
