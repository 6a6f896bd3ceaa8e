import Verif.Model.Utils

/-!
Model of the template input: reading template files (`utils::get_lines`,
`load_from_file`), dumping them (`save_to_file`) and embedding them into the
program (`gen_templates_data.c`).

A stream is the list of the bytes not read yet; `none` stands for `EOF`.  Read
errors are not modelled.
-/

namespace Gdo.Tpl
open Gdo

/-- `template_t` (types.hpp 60-64). -/
structure Entry where
  data : Str
  maybeKeyword : Bool
  lineCount : Nat
  deriving DecidableEq, Repr

/-- The terminating list entry `{ {}, 0, 0 }` (data.cpp 97). -/
def terminator : Entry := ⟨[], false, 0⟩

/-- The entry as initialised by `utils::get_lines` (utils.cpp 175-177). -/
def freshEntry : Entry := ⟨[], false, 1⟩

/-- `save_to_line` (utils.cpp 33-66).  `none` is `EOF`. -/
def saveToLine : Option Char → Entry → Bool × Entry
  | none, e => (false, { e with data := deleteSuffix e.data (str% "@") })
  | some c, e =>
    if c = '\n' then
      if (str% "@").isSuffixOf e.data then
        (true, { e with data := e.data.dropLast ++ str% "\n", lineCount := e.lineCount + 1 })
      else if (str% "@\r").isSuffixOf e.data then
        (true, { e with data := e.data.take (e.data.length - 2) ++ str% "\r\n",
                        lineCount := e.lineCount + 1 })
      else (false, e)
    else if c = '%' then (true, { e with data := e.data ++ [c], maybeKeyword := true })
    else (true, { e with data := e.data ++ [c] })

/-- The loop of `utils::get_lines` (utils.cpp 179-185).  The second component is
    the rest of the stream, `none` if the loop ended at `EOF`. -/
def getLinesLoop : Str → Entry → Entry × Option Str
  | [], e => ((saveToLine none e).2, none)
  | c :: s, e =>
    match saveToLine (some c) e with
    | (true, e') => getLinesLoop s e'
    | (false, e') => (e', some s)

/-- `utils::get_lines` (utils.cpp 170-188). -/
def getLines (s : Str) : Entry × Option Str := getLinesLoop s freshEntry

/-- The loop `while (rv) { rv = get_lines(…); push_back }` (data.cpp 91-94,
    likewise gendlopen.cpp 208-212), at most `n` iterations. -/
def readEntriesN : Nat → Str → List Entry
  | 0, _ => []
  | n + 1, s =>
    match getLines s with
    | (e, some s') => e :: readEntriesN n s'
    | (e, none) => [e]

/-- All entries of a file.  Each iteration but the last one consumes a newline, so
    that the number of iterations is at most the length of the text plus one. -/
def readEntries (s : Str) : List Entry := readEntriesN (s.length + 1) s

/-- The initial entry of a template loaded from a file (data.cpp 77-88). -/
def lineEntry (file : Str) (isStdin : Bool) : Entry :=
  if isStdin then ⟨str% "#line 1 \"<STDIN>\"", false, 1⟩
  else ⟨str% "#line 1 \"" ++ file ++ str% "\"\n", false, 1⟩

/-- `load_from_file` (data.cpp 55-100): what is appended to the vector.  `file` is
    the name of the template, `s` the contents of the file. -/
def loadFromFile (file : Str) (isStdin lineDirective : Bool) (s : Str) : List Entry :=
  let lineDirective := if file = str% "license.h" then false else lineDirective
  (if lineDirective then [lineEntry file isStdin] else []) ++ readEntries s ++ [terminator]

/-- The entries of a list up to the terminating entry. -/
def listEntries (l : List Entry) : List Entry := l.takeWhile fun e => e.lineCount != 0

/-- One iteration of the loop of `save_to_file` (data.cpp 117-132). -/
def dumpEntry (e : Entry) : Str :=
  if e.lineCount = 1 then e.data ++ str% "\n"
  else (e.data.flatMap fun c => if c = '\n' then str% "@\n" else [c]) ++ str% "\n"

/-- `save_to_file` (data.cpp 103-133): the contents of the file written. -/
def saveToFile (l : List Entry) : Str := (listEntries l).flatMap dumpEntry

/-! ### `gen_templates_data.c` -/

/-- An entry as written by `dump`: the text between the quotes of each of the
    adjacent string literals, the flag and the line count.  The braces, commas,
    white space and the comment `multiline entry` are not modelled. -/
structure LitEntry where
  lits : List Str
  percent : Bool
  count : Nat
  deriving DecidableEq, Repr

/-- `0`..`9`, `A`..`F` as printed by `%02X`. -/
def hexDigit (n : Nat) : Char := if n < 10 then Char.ofNat (48 + n) else Char.ofNat (55 + n)

/-- The escape sequence for one character outside line ends and continuation marks
    (gen_templates_data.c 86-99 and 142-148). -/
def escChar (c : Char) : Str :=
  if c = '\t' then str% "\\t"
  else if c = '"' then str% "\\\""
  else if c = '\\' then str% "\\\\"
  else if c.toNat < 32 ∨ c.toNat > 126 then
    str% "\\x" ++ [hexDigit (c.toNat % 256 / 16), hexDigit (c.toNat % 16)]
  else [c]

/-- State of the loop of `dump`: `fin` the finished literals of the entry, `cur`
    the one being written, `percent`, `count`, and `newLine`. -/
structure EmbedState where
  newLine : Bool
  fin : List Str
  cur : Str
  percent : Bool
  count : Nat
  deriving DecidableEq, Repr

/-- The state at the start of an entry (gen_templates_data.c 43-50, 113-115). -/
def EmbedState.init : EmbedState := ⟨true, [], [], false, 0⟩

/-- The entry that is closed (gen_templates_data.c 111-112, 153-154). -/
def EmbedState.close (st : EmbedState) : LitEntry := ⟨st.fin ++ [st.cur], st.percent, st.count + 1⟩

/-- A string appended to the current literal. -/
def EmbedState.put (st : EmbedState) (t : Str) : EmbedState :=
  { st with newLine := false, cur := st.cur ++ t }

/-- A continued line (gen_templates_data.c 127-135). -/
def EmbedState.cont (st : EmbedState) : EmbedState :=
  { st with newLine := false, fin := st.fin ++ [st.cur ++ str% "\\n"], cur := [], count := st.count + 1 }

/-- The loop of `dump` (gen_templates_data.c 77-155).  A character that is put back
    with `ungetc` stays in the list. -/
def embedLoop (st : EmbedState) : Str → List LitEntry
  | [] => if st.newLine then [] else [st.close]
  | '\r' :: '\n' :: s => st.close :: embedLoop .init s
  | '\r' :: s => embedLoop (st.put (str% "\\r")) s
  | '\n' :: s => st.close :: embedLoop .init s
  | '@' :: '\r' :: '\n' :: s => embedLoop st.cont s
  | '@' :: '\r' :: s => embedLoop (st.put (str% "@\r")) s
  | '@' :: '\n' :: s => embedLoop st.cont s
  | ['@'] => embedLoop st.cont []
  | '@' :: s => embedLoop (st.put (str% "@")) s
  | '%' :: s => embedLoop { st.put (str% "%") with percent := true } s
  | c :: s => embedLoop (st.put (escChar c)) s

/-- The entries written for the text of a template file, without the initial
    `#line` entry and the terminating one. -/
def embed (s : Str) : List LitEntry := embedLoop .init s

/-- The initial entry of an embedded template (gen_templates_data.c 71-73), as it
    is after compilation. -/
def builtinLineEntry (file : Str) : Entry := ⟨str% "#line 1 \"<built-in>/" ++ file ++ str% "\"", false, 1⟩

end Gdo.Tpl
