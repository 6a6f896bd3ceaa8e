import Verif.Model.Template
import Verif.Model.Prefix
import Verif.Model.Parse

/-!
Model of `src/substitute.cpp` and of the loop of `process_custom_template`
(gendlopen.cpp 178-213): keywords in template entries are replaced by the data of
the symbols.

What is written to the output stream is a list of chunks.  `utils::replace` is a
loop that need not end; the functions here take the maximal number of iterations
`n` of each such loop, and `SubErr.more` is the outcome if it has not ended by then.
-/

namespace Gdo.Sub
open Gdo Tpl

/-- Something written to `save::ofs`. -/
inductive Chunk
  /-- `#line N`, newline -/
  | directive (n : Nat)
  /-- a text, newline -/
  | text (s : Str)
  deriving DecidableEq, Repr

/-- The bytes written. -/
def Chunk.bytes : Chunk → Str
  | .directive n => str% "#line " ++ Nat.toDigits 10 n ++ str% "\n"
  | .text s => s ++ str% "\n"

/-- The bytes written for a list of chunks. -/
def bytes (cs : List Chunk) : Str := cs.flatMap Chunk.bytes

/-- The ways how template processing can fail. -/
inductive SubErr
  /-- "cannot mix function, object and regular symbol placeholders" -/
  | mixed (data : Str)
  /-- "no function or object prototypes" -/
  | noPrototypes
  /-- not an error of the program: a loop has not ended after `n` iterations -/
  | more
  deriving DecidableEq, Repr

/-- The members of `gendlopen` that are used here. -/
structure Config where
  lineDirective : Bool := false
  names : ParamNames := .read
  pfx : Str := str% "gdo"
  prototypes : List Proto := []
  objects : List Proto := []

/-- A C string: the text up to the first NUL. -/
def cstr (s : Str) : Str := s.takeWhile (· ≠ '\x00')

/-- `check_skip_keyword` (substitute.cpp 51-77): the new value of `param_skip_code`,
    `none` if the line is not a marker. -/
def checkSkip (data : Str) (names : ParamNames) : Option Bool :=
  let p := cstr data
  if (str% "%PARAM_SKIP_").isPrefixOf p then
    let p := p.drop 12
    if p = str% "REMOVE_BEGIN%" then some (names = .skip)
    else if p = str% "USE_BEGIN%" then some (names ≠ .skip)
    else if p = str% "END%" then some false
    else none
  else none

/-- `get_longest_symbol_size` (substitute.cpp 80-89). -/
def longestSymbol (v : List Proto) : Nat := v.foldl (fun m p => max m p.symbol.length) 0

/-- `utils::replace` with at most `n` iterations. -/
def replaceN (n : Nat) (src dst s : Str) : Except SubErr Str :=
  match replaceFuel src dst n s with
  | some r => .ok r
  | none => .error .more

/-- Several replacements after each other. -/
def replaceSeq (n : Nat) : List (Str × Str) → Str → Except SubErr Str
  | [], s => .ok s
  | (src, dst) :: r, s => do
    let s' ← replaceN n src dst s
    replaceSeq n r s'

/-- `std::string::ends_with('*')`. -/
def endsStar (s : Str) : Bool := (str% "*").isSuffixOf s

/-- The symbol with blanks appended (substitute.cpp 138-139, 178-179). -/
def padded (longest : Nat) (s : Str) : Str := s ++ List.replicate (longest - s.length) ' '

/-- The replacements made for a function (substitute.cpp 118-141).  `erase_string`
    is a replacement by the empty string. -/
def functionPasses (longest : Nat) (p : Proto) : List (Str × Str) :=
  (if eqCase (cstr p.type) (str% "void") then [(str% "%%return%% ", []), (str% "%%return%%", [])]
   else [(str% "%%return%%", str% "return")]) ++
  (if endsStar p.type then [(str% "%%type%% ", p.type)] else []) ++
  [(str% "%%type%%", p.type), (str% "%%func_symbol%%", p.symbol), (str% "%%args%%", p.args),
   (str% "%%param_names%%", p.paramNames)] ++
  (if longest > 0 then [(str% "%%func_symbol_pad%%", padded longest p.symbol)] else [])

/-- The replacements made for an object (substitute.cpp 169-181). -/
def objectPasses (longest : Nat) (p : Proto) : List (Str × Str) :=
  (if endsStar p.type then [(str% "%%obj_type%% ", p.type)] else []) ++
  [(str% "%%obj_type%%", p.type), (str% "%%obj_symbol%%", p.symbol)] ++
  (if longest > 0 then [(str% "%%obj_symbol_pad%%", padded longest p.symbol)] else [])

/-- `type` for a function (substitute.cpp 220-224). -/
def functionSymType (p : Proto) : Str :=
  if endsStar p.type then p.type ++ str% "(*)(" ++ p.args ++ str% ")"
  else p.type ++ str% " (*)(" ++ p.args ++ str% ")"

/-- `type` for an object (substitute.cpp 232-236). -/
def objectSymType (p : Proto) : Str :=
  if endsStar p.type then p.type ++ str% "*" else p.type ++ str% " *"

/-- The replacements of `replace_and_print` (substitute.cpp 205-206). -/
def symbolPasses (type symbol : Str) : List (Str × Str) :=
  [(str% "%%sym_type%%", type), (str% "%%symbol%%", symbol)]

/-- `utils::find(s, token)`. -/
def found (token s : Str) : Bool := (splitFirst token s).isSome

/-- The loop over the symbols: for each of them the replacements are made in a copy
    of the entry, which is written (substitute.cpp 115-150, 166-190, 202-239). -/
def replaceLoop (n : Nat) (cfg : Config) (lineno : Nat) (entry : Str) :
    List (List (Str × Str)) → Except SubErr (List Chunk × Nat)
  | [] => .ok ([], 0)
  | ps :: r => do
    let copy ← replaceSeq n ps entry
    let (cs, k) ← replaceLoop n cfg lineno entry r
    return ((if cfg.lineDirective then [.directive lineno] else []) ++ [.text copy] ++ cs,
      (if cfg.lineDirective then 1 else 0) + (countLinefeed entry + 1) + k)

/-- `replace_function_prototypes` (substitute.cpp 95-153). -/
def replaceFunctions (n : Nat) (cfg : Config) (lineno : Nat) (entry : Str) : Except SubErr (List Chunk × Nat) :=
  let longest := if found (str% "%%func_symbol_pad%%") entry then longestSymbol cfg.prototypes else 0
  replaceLoop n cfg lineno entry (cfg.prototypes.map (functionPasses longest))

/-- `replace_object_prototypes` (substitute.cpp 156-193). -/
def replaceObjects (n : Nat) (cfg : Config) (lineno : Nat) (entry : Str) : Except SubErr (List Chunk × Nat) :=
  let longest := if found (str% "%%obj_symbol_pad%%") entry then longestSymbol cfg.objects else 0
  replaceLoop n cfg lineno entry (cfg.objects.map (objectPasses longest))

/-- `replace_symbol_names` (substitute.cpp 196-242). -/
def replaceSymbols (n : Nat) (cfg : Config) (lineno : Nat) (entry : Str) : Except SubErr (List Chunk × Nat) :=
  replaceLoop n cfg lineno entry
    ((cfg.prototypes.map fun p => symbolPasses (functionSymType p) p.symbol) ++
     (cfg.objects.map fun p => symbolPasses (objectSymType p) p.symbol))

/-- substitute.cpp 247-254. -/
def functionKeywords : List Str :=
  [str% "%%return%%", str% "%%type%%", str% "%%func_symbol%%", str% "%%func_symbol_pad%%",
   str% "%%args%%", str% "%%param_names%%"]

/-- substitute.cpp 256-260. -/
def objectKeywords : List Str := [str% "%%obj_type%%", str% "%%obj_symbol%%", str% "%%obj_symbol_pad%%"]

/-- substitute.cpp 262-265. -/
def symbolKeywords : List Str := [str% "%%sym_type%%", str% "%%symbol%%"]

/-- `find_keyword` (substitute.cpp 281-288). -/
def findKeyword (list : List Str) (buf : Str) : Bool := list.any fun e => found e buf

/-- `print_lineno` (substitute.cpp 270-279). -/
def printLineno (cfg : Config) (lineno : Nat) (buf : Str) : List Chunk × Nat :=
  (if cfg.lineDirective then [.directive (lineno + countLinefeed buf)] else [], countLinefeed buf)

/-- `substitute_line` (substitute.cpp 245-364): what is written, the returned number
    of lines and the new value of `param_skip_code`. -/
def substituteLine (n : Nat) (cfg : Config) (lineno : Nat) (skip : Bool) (e : Entry) :
    Except SubErr (List Chunk × Nat × Bool) :=
  if e.data.isEmpty then
    if skip then .ok ([], 0, skip) else .ok ([.text []], 1, skip)
  else
    match (if e.maybeKeyword then checkSkip e.data cfg.names else none) with
    | some skip' =>
      if !skip' && cfg.lineDirective then .ok ([.directive (lineno + 1)], 1, skip')
      else .ok ([], 0, skip')
    | none =>
      if skip then .ok ([], 0, skip)
      else
        let buf := Pfx.applyPrefix cfg.pfx e.data
        let plain := ([Chunk.text buf], countLinefeed buf + 1, skip)
        if e.maybeKeyword && found (str% "%%") buf then
          let loop : Except SubErr (Option (List Chunk × Nat)) :=
            match findKeyword functionKeywords buf, findKeyword objectKeywords buf,
                findKeyword symbolKeywords buf with
            | false, false, false => .ok none
            | true, false, false =>
              if cfg.prototypes.isEmpty then .ok (some (printLineno cfg lineno buf))
              else (replaceFunctions n cfg lineno buf).map some
            | false, true, false =>
              if cfg.objects.isEmpty then .ok (some (printLineno cfg lineno buf))
              else (replaceObjects n cfg lineno buf).map some
            | false, false, true => (replaceSymbols n cfg lineno buf).map some
            | _, _, _ => .error (.mixed e.data)
          match loop with
          | .error x => .error x
          | .ok none => .ok plain
          | .ok (some r) => .ok (r.1, r.2, skip)
        else .ok plain

/-- The loop over the entries of a list (substitute.cpp 389-392), likewise
    gendlopen.cpp 208-212.  For each entry what is written for it; the sum of the
    returned numbers of lines; the final value of `param_skip_code`. -/
def substEntries (n : Nat) (cfg : Config) : Nat → Bool → List Entry → Except SubErr (List (List Chunk) × Nat × Bool)
  | _, skip, [] => .ok ([], 0, skip)
  | lineno, skip, e :: es => do
    let (cs, k, skip') ← substituteLine n cfg lineno skip e
    let (css, ks, skip'') ← substEntries n cfg (lineno + e.lineCount) skip' es
    return (cs :: css, k + ks, skip'')

/-- The entries of a list that are processed (substitute.cpp 385-389): the initial
    `#line` entry is left out without `-line`. -/
def processed (cfg : Config) (list : List Entry) : List Entry :=
  let list :=
    match list with
    | e :: r => if !cfg.lineDirective && (str% "#line").isPrefixOf (cstr e.data) then r else list
    | [] => list
  listEntries list

/-- The loop over the lists (substitute.cpp 380-393). -/
def substLists (n : Nat) (cfg : Config) : Bool → List (List Entry) → Except SubErr (List (List (List Chunk)) × Nat)
  | _, [] => .ok ([], 0)
  | skip, l :: ls => do
    let (css, k, skip') ← substEntries n cfg 0 skip (processed cfg l)
    let (r, ks) ← substLists n cfg skip' ls
    return (css :: r, k + ks)

/-- `substitute` (substitute.cpp 367-396). -/
def substitute (n : Nat) (cfg : Config) (vec : List (List Entry)) : Except SubErr (List (List (List Chunk)) × Nat) :=
  if vec.isEmpty then .ok ([], 0)
  else if cfg.prototypes.isEmpty && cfg.objects.isEmpty then .error .noPrototypes
  else substLists n cfg false vec

/-- `process_custom_template` (gendlopen.cpp 195-212) on the contents of the file:
    what is written behind the initial `#line 1 "file"` line. -/
def customTemplate (n : Nat) (cfg : Config) (s : Str) : Except SubErr (List (List Chunk) × Nat × Bool) :=
  substEntries n cfg (if cfg.lineDirective then 1 else 0) false (readEntries s)

end Gdo.Sub
