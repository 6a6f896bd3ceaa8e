import Verif.Basic

/-!
Model of `src/help.cpp`: the texts that `-help` and `-full-help` print, line by line.
`prog` is the name of the program (`utils::progname`), `win` is true on Windows.
-/

namespace Gdo.Help
open Gdo

/-- Lines as they are printed. -/
def unlines (ls : List Str) : Str := (ls.map (· ++ str% "\n")).flatten

/-- The first line of both texts (help.cpp 40, 93). -/
def usage (prog : Str) : Str := str% "usage: " ++ prog ++ str% " [OPTIONS..] <file>"

/-- help.cpp 41-44 -/
def briefHead : List Str :=
  [str% "",
   str% "  <file>            input file, use `-' to read from stdin",
   str% "",
   str% "options:"]

/-- help.cpp 45-50 -/
def briefPrefixes (win : Bool) : List Str :=
  if win then
    [str% "  all options may be prefixed with `-' or `/', multi-letter options may also use `--';",
     str% "  argument separator may be `=' or `:'"]
  else
    [str% "  multi-letter options may also be prefixed with `--'"]

/-- help.cpp 51-84 -/
def briefTail : List Str :=
  [str% "",
   str% "  -ast-all-symbols  use all symbols from a Clang AST (`-P' and `-S' are ignored)",
   str% "  -D<string>        define a preprocessor macro *",
   str% "  -dump-templates=<path>",
   str% "                    dump internal template files into directory and exit",
   str% "  -force            always overwrite existing output files",
   str% "  -format=<string>  set output format: c (default), c++, plugin, minimal, minimal-c++",
   str% "  -full-help        show more detailed information",
   str% "  -help             display this information",
   str% "  -ignore-options   ignore `%option' lines from input file",
   str% "  -include=[nq:]<file>",
   str% "                    include a header file *;",
   str% "                    nq:<file> - no quotes are added, the string will be used as is",
   str% "  -library=[<mode>:]<lib>",
   str% "                    set a default library name to load; if <mode> is 'nq' no quotes are",
   str% "                    added, 'ext' will append a file extension to the library name and 'api:#'",
   str% "                    will create a library filename with API number",
   str% "  -line             add `#line' directives to output",
   str% "  -no-date          don't show current date in output",
   str% "  -no-pragma-once   use `#ifndef' header guard instead of `#pragma once'",
   str% "  -out=<file>       save to file instead of stdout",
   str% "  -P<string>        look for symbols prefixed with <string> *",
   str% "  -param=<mode>     how to handle parameter names in function prototypes from input file;",
   str% "                    modes are: read (default), skip, create",
   str% "  -prefix=<string>  use <string> to prefix functions, macros and C++ namespaces (default: gdo)",
   str% "  -print-symbols    print list of found symbols and exit",
   str% "  -S<string>        look for symbol name <string> *",
   str% "  -separate         save output into separate body and header files",
   str% "  -template=<file>  use a custom template (`-format' and `-templates-path' are ignored)",
   str% "  -templates-path=<path>",
   str% "                    use external template files",
   str% "  -version          output version information and exit",
   str% "",
   str% "  * option may be passed multiple times"]

/-- `help::print` (help.cpp 37-87); `std::endl` adds an empty line. -/
def brief (win : Bool) (prog : Str) : Str :=
  unlines (usage prog :: (briefHead ++ briefPrefixes win ++ briefTail) ++ [[]])

/-- help.cpp 94-124 -/
def fullHead : List Str :=
  [str% "",
   str% "  <file>",
   str% "    Specify an input file. Use `-' to read data from stdin.",
   str% "",
   str% "    The input text must contain all symbols that should be loaded.",
   str% "    They must be listed as C-style prototypes, ending on semi-colon (;).",
   str% "    Comments are ignored, line-breaks are treated as spaces.",
   str% "    Any other code will throw an error.",
   str% "",
   str% "    Some options can be set on a line beginning with `%option':",
   str% "    %option D=<string>",
   str% "    %option format=<string>",
   str% "    %option include=[nq:]<file>",
   str% "    %option library=[<mode>:]<lib>",
   str% "    %option line",
   str% "    %option no-date",
   str% "    %option no-pragma-once",
   str% "    %option param=[skip|create|read]",
   str% "    %option prefix=<string>",
   str% "",
   str% "    See the corresponding command line options for details.",
   str% "",
   str% "    Alternatively the input may be an Abstract Syntax Tree (AST) generated by Clang.",
   str% "    To dump the AST created from `foo.h' you can run the following command:",
   str% "    clang -Xclang -ast-dump foo.h > ast.txt",
   str% "",
   str% "",
   str% "Options:",
   str% ""]

/-- help.cpp 126-131 -/
def fullPrefixes (win : Bool) : List Str :=
  if win then
    [str% "  All options may be prefixed with `-' or `/', multi-letter options may also use `--'.",
     str% "  Argument separator may be `=' or `:'."]
  else
    [str% "  Multi-letter options may also be prefixed with `--'."]

/-- help.cpp 132-395 -/
def fullTail : List Str :=
  [str% "",
   str% "",
   str% "  -ast-all-symbols",
   str% "    Pass this flag if you really want to use all symbols found in a Clang AST.",
   str% "    Be careful as this might include unwanted prototypes from other headers.",
   str% "    It's recommended to use `-P' and/or `-S' instead.",
   str% "    If the input is a Clang AST and this flag was set then `-P' and `-S' are",
   str% "    ignored.",
   str% "",
   str% "    This flag is ignored if the input is not a Clang AST.",
   str% "",
   str% "",
   str% "  -D<string>",
   str% "    Set a preprocessor definition macro to be added at the top of the output code.",
   str% "    This macro may include a value in the form of `FOO=1'.",
   str% "",
   str% "    This flag may be passed multiple times.",
   str% "",
   str% "",
   str% "  -dump-templates=<path>",
   str% "    Dump internal template files into directory and exit.",
   str% "",
   str% "",
   str% "  -force",
   str% "    Always overwrite existing output files. Use with care.",
   str% "",
   str% "",
   str% "  -format=<string>",
   str% "    Use one of the following output formats:",
   str% "    C            -  many features, this is the default",
   str% "    C++          -  many features but no exception handling (due to the design)",
   str% "    plugin       -  intended to write a plugin loader",
   str% "    minimal      -  small C header",
   str% "    minimal-C++  -  small C++ header with exception handling",
   str% "",
   str% "    More information can be found in the comments of the header files.",
   str% "",
   str% "",
   str% "  -full-help",
   str% "    Show more detailed information.",
   str% "",
   str% "",
   str% "  -help",
   str% "    Show a brief description of all command line arguments.",
   str% "",
   str% "",
   str% "  -ignore-options",
   str% "    Ignore lines beginning with `%option' from the input file.",
   str% "",
   str% "",
   str% "  -include=[nq:]<file>",
   str% "    Set a header file name to be included at the top of the output code.",
   str% "    Quotation marks are put around the filename if it's not enclosed in",
   str% "    brackets or quotation marks or if it's not prefixed with \"nq:\".",
   str% "",
   str% "    -include=foo.h      ==>  #include \"foo.h\"",
   str% "    -include='\"foo.h\"'  ==>  #include \"foo.h\"",
   str% "    -include=<foo.h>    ==>  #include <foo.h>",
   str% "    -include=nq:foo     ==>  #include foo",
   str% "",
   str% "    This flag may be passed multiple times.",
   str% "",
   str% "",
   str% "  -library=[<mode>:]<lib>",
   str% "    Set a default library name to load.",
   str% "    If no mode was set quotation marks are put around the filename as needed.",
   str% "",
   str% "    Available modes:",
   str% "    nq    - no quotes are added, the string will be used as is",
   str% "    ext   - filename extension will be added automatically through a macro",
   str% "    api:# - library filename with API number will be created through a macro",
   str% "",
   str% "    -library=foo        ==>  \"foo\"",
   str% "    -library=nq:foo     ==>  foo",
   str% "    -library=ext:foo    ==>  \"foo\" LIBEXTA    ==>  i.e. \"foo.dll\"",
   str% "    -library=api:2:foo  ==>  LIBNAMEA(foo,2)  ==>  i.e. \"libfoo.so.2\"",
   str% "",
   str% "",
   str% "  -line",
   str% "    Add `#line' directives to the output that will refer to the original template",
   str% "    files.",
   str% "",
   str% "",
   str% "  -no-date",
   str% "    Don't show the current date in output. Useful for reproducable builds.",
   str% "",
   str% "",
   str% "  -no-pragma-once",
   str% "    Don't add `#pragma once' to output header file. Instead use the classic",
   str% "    `#ifndef' preprocessor header guard.",
   str% "",
   str% "",
   str% "  -out=<file>",
   str% "    Specify an output file.",
   str% "    If this flag isn't set or if <file> is `-' output will be printed to stdout.",
   str% "",
   str% "",
   str% "  -P<string>",
   str% "    Look for symbols that begin with <string> when parsing the input.",
   str% "    This is most useful if the input is a Clang AST to ignore unwanted",
   str% "    declarations coming from i.e. standard C headers.",
   str% "",
   str% "    This flag may be passed multiple times.",
   str% "",
   str% "",
   str% "  -param=<mode>",
   str% "    If <mode> is 'read':",
   str% "    Always try to read parameter names in function prototypes when",
   str% "    the input is being processed. This is the default behavior if `-param'",
   str% "    was not explicitly set.",
   str% "",
   str% "    If <mode> is 'skip':",
   str% "    Don't try to look for parameter names in function prototypes. This will",
   str% "    disable any kind of wrapped functions in the output.",
   str% "",
   str% "    If <mode> is 'create':",
   str% "    Create parameter names for the output to be used in wrapped functions.",
   str% "    Function prototypes from the input are assumed to have no parameter names!",
   str% "",
   str% "",
   str% "  -prefix=<string>",
   str% "    Use <string> as a prefix in names of functions and macros or as C++",
   str% "    namespace when generating output to avoid symbol clashes.",
   str% "    The default string is `gdo'.",
   str% "    Upper/lower case and underscores will be set accordingly.",
   str% "",
   str% "",
   str% "  -print-symbols",
   str% "    Don't create any output, just print a list of found symbols and exit.",
   str% "    This is useful for debugging.",
   str% "",
   str% "",
   str% "  -S<string>",
   str% "    Look for the symbol name <string> when parsing the input.",
   str% "    This is most useful if the input is a Clang AST,",
   str% "    to ignore unwanted declarations coming from i.e. standard C headers.",
   str% "",
   str% "    This flag may be passed multiple times.",
   str% "",
   str% "",
   str% "  -separate",
   str% "    Save output into separate body and header files.",
   str% "    The filename extensions will be set to .c/.h or .cpp/.hpp accordingly.",
   str% "    This flag is ignored if the output is printed to stdout or if the",
   str% "    output format is \"minimal-C\" or \"minimal-C++\".",
   str% "",
   str% "    Be sure to use the same settings for the generated body file and all other",
   str% "    compilation units that included the header file. Otherwise you will likely",
   str% "    get linking errors. Set options with i.e. `-D' or `-include' during code",
   str% "    generation.",
   str% "",
   str% "",
   str% "  -template=<file>",
   str% "    Use a custom template file to generate output from.",
   str% "    The options `-format' and `-templates-path' will be ignored in this case.",
   str% "",
   str% "    Text substitution in the template file is done as following:",
   str% "",
   str% "    If a prefix was set with `-name' then any instances of `GDO_' and `gdo_'",
   str% "    will be substituted with it, converted to uppercase and lowercase.",
   str% "",
   str% "    Any lines containing one or more of the following will be replaced multiple",
   str% "    times with code from the input (used to generate typedefs, prototyes, etc.):",
   str% "",
   str% "    %%type%%: function return type",
   str% "    %%func_symbol%%: function symbol name",
   str% "    %%func_symbol_pad%%: function symbol name with padding spaces",
   str% "    %%args%%: function arguments",
   str% "    %%param_names%%: function argument names without type",
   str% "    %%return%%: empty if function doesn't return anything (void), else `return'",
   str% "",
   str% "    %%obj_type%%: object type",
   str% "    %%obj_symbol%%: object symbol name",
   str% "    %%obj_symbol_pad%%: object symbol name with padding spaces",
   str% "",
   str% "    %%sym_type%%: function or object symbol type",
   str% "    %%symbol%%: function or object symbol name",
   str% "",
   str% "    If a line ends on `@' it will be processed together with the next line as if",
   str% "    there was no line break, but the line break will still appear in the output.",
   str% "",
   str% "    If `-param=skip' was passed all lines after a `%PARAM_SKIP_REMOVE_BEGIN%' line",
   str% "    won't be used, while code after a `%PARAM_SKIP_USE_BEGIN%' line will be.",
   str% "    It's the other way around if `-param=skip' was not passed.",
   str% "    A line `%PARAM_SKIP_END%' will reset everything to default. This is used to",
   str% "    skip code that would otherwise require parameter names.",
   str% "",
   str% "",
   str% "  -templates-path=<path>",
   str% "    Specifiy a directory containing template files to use.",
   str% "",
   str% "",
   str% "  -version",
   str% "    Output version information and exit."]

/-- `help::print_full` (help.cpp 90-399); `std::endl` adds an empty line. -/
def full (win : Bool) (prog : Str) : Str :=
  unlines (usage prog :: (fullHead ++ fullPrefixes win ++ fullTail) ++ [[]])

/-- The last separator of a path and what follows it (utils.cpp 214-227): `strrchr`, on Windows
    a loop. -/
def lastComponent (win : Bool) (path : Str) : Option Str :=
  if path.any fun c => c == '/' || (win && c == '\\') then
    some ((path.reverse.takeWhile fun c => !(c == '/' || (win && c == '\\'))).reverse)
  else none

/-- `utils::progname` (utils.cpp 209-234), used where the C library has no such function.  `path` is
    `argv[0]` or, on Windows, the path that `_get_pgmptr` tells. -/
def progname (win : Bool) (path : Str) : Str :=
  match lastComponent win path with
  | some (c :: r) => c :: r
  | _ => path

end Gdo.Help
