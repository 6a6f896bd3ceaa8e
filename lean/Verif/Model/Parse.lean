import Verif.Model.Utils

/-!
Model of `src/check_pattern.cpp`, `src/parse.cpp` and `src/parameter_names.cpp`:
recognition of declarations in lists of tokens.

A `vstring_t` is a list of strings, an iterator into it an index; dereferencing
or forming a range is checked, an access outside of the vector is the outcome
`none` (undefined behaviour).
-/

namespace Gdo

/-- `vstring_t` (types.hpp 35). -/
abbrev Toks := List Str

/-- `proto::type` (types.hpp 40-48). -/
inductive ProtoKind
  | function | functionPointer | object | objectArray
  deriving DecidableEq, Repr

/-- `proto_t` (types.hpp 51-59). -/
structure Proto where
  kind : ProtoKind
  saved : Bool := false
  type : Str := []
  symbol : Str := []
  args : Str := []
  argsVec : List Toks := []
  paramNames : Str := []
  deriving DecidableEq, Repr

/-- `param::names` (types.hpp 87-94). -/
inductive ParamNames
  | read | create | skip
  deriving DecidableEq, Repr

/-- Dereferencing the iterator `v.begin() + i`. -/
def deref (v : Toks) (i : Nat) : Ub Str := v[i]?

/-- Dereferencing the iterator `v.begin() + i - k`. -/
def derefBack (v : Toks) (i k : Nat) : Ub Str := if k ≤ i then v[i - k]? else none

/-- The range `[v.begin()+i, v.begin()+j)`.  A loop `it != end` over a range
    with `i > j`, or one that leaves the vector, is undefined behaviour. -/
def slice (v : Toks) (i j : Nat) : Ub Toks :=
  if i ≤ j ∧ j ≤ v.length then some ((v.drop i).take (j - i)) else none

/-- `v.end() - k`. -/
def endMinus (v : Toks) (k : Nat) : Ub Nat := if k ≤ v.length then some (v.length - k) else none

/-- The placeholder character `TYPE` (check_pattern.cpp 35). -/
def TYPE : Char := '\x01'
/-- The placeholder character `SYMBOL` (check_pattern.cpp 36). -/
def SYMBOL : Char := '\x02'

/-- `seq_t` (check_pattern.cpp 39-46) without the three size fields, which `MKFUNC`
    computes from the strings (lines 144-151). -/
structure Seq where
  front : Str
  middle : Str
  last : Str

/-- `min_size` (check_pattern.cpp 148). -/
def Seq.minSize (q : Seq) : Nat := q.front.length + q.middle.length + q.last.length
/-- `dist_front` (check_pattern.cpp 149). -/
def Seq.distFront (q : Seq) : Nat := q.front.length
/-- `dist_end` (check_pattern.cpp 150). -/
def Seq.distEnd (q : Seq) : Nat := q.middle.length + q.last.length

/-- The lambda `matching` (check_pattern.cpp 58-62). -/
def matching (eVec eSeq : Char) : Bool :=
  eVec == eSeq || (eSeq == SYMBOL && isIdent eVec)

/-- The loop over the middle part (check_pattern.cpp 105-109). -/
def matchMiddle (v : Toks) : Nat → Str → Ub Bool
  | _, [] => some true
  | i, p :: ps => do
    let e ← deref v i
    if !matching (strFront e) p then return false
    matchMiddle v (i + 1) ps

/-- The test of the front part (check_pattern.cpp 78-82); true if it passes. -/
def matchFront (v : Toks) (it : Nat) (q : Seq) : Ub Bool :=
  if strAt q.front 1 == SYMBOL then do
    let e ← derefBack v it 1
    return isIdent (strFront e)
  else some true

/-- The test of the end part (check_pattern.cpp 85-102); true if it passes. -/
def matchEnd (v : Toks) (q : Seq) : Ub Bool :=
  if strAt q.last 1 == '\x00' then do
    let e ← derefBack v v.length 1
    return matching (strFront e) (strAt q.last 0)
  else do
    let e1 ← derefBack v v.length 1
    if !matching (strFront e1) (strAt q.last 1) then return false
    let e2 ← derefBack v v.length 2
    return matching (strFront e2) (strAt q.last 0)

/-- `check_pattern` (check_pattern.cpp 55-112).  The iterator is an index,
    `v.end()` is `v.length`. -/
def checkPattern (v : Toks) (it : Nat) (q : Seq) : Ub Bool := do
  if v.length < q.minSize then return false
  if it ≠ v.length ∧ (it < q.distFront ∨ v.length - it < q.distEnd) then return false
  if !(← matchFront v it q) then return false
  if !(← matchEnd v q) then return false
  matchMiddle v it q.middle

/-- `parse::find_first_not_pointer_or_ident` (check_pattern.cpp 117-128). -/
def findFirstNotPointerOrIdent : Toks → Nat
  | [] => 0
  | e :: v =>
    if strFront e ≠ '*' ∧ !isIdent (strFront e) then 0
    else findFirstNotPointerOrIdent v + 1

/-- check_pattern.cpp 156 -/
def seqFunction : Seq := ⟨[TYPE, SYMBOL], ['('], [')']⟩
/-- check_pattern.cpp 157 -/
def seqFunctionParentheses : Seq := ⟨[TYPE], ['(', SYMBOL, ')', '('], [')']⟩
/-- check_pattern.cpp 158 -/
def seqFunctionParenPointer1 : Seq := ⟨[TYPE], ['(', '*', SYMBOL, '('], [')', ')']⟩
/-- check_pattern.cpp 159 -/
def seqFunctionParenPointer2 : Seq := ⟨[TYPE], ['(', '*', '*', SYMBOL, '('], [')', ')']⟩
/-- check_pattern.cpp 161 -/
def seqFunctionPointer : Seq := ⟨[TYPE], ['(', '*', SYMBOL, ')', '('], [')']⟩
/-- check_pattern.cpp 162 -/
def seqFunctionPointerNoName : Seq := ⟨[TYPE], ['(', '*', ')', '('], [')']⟩
/-- check_pattern.cpp 164 -/
def seqObject : Seq := ⟨[TYPE], [], [SYMBOL]⟩
/-- check_pattern.cpp 165 -/
def seqArray : Seq := ⟨[TYPE, SYMBOL], ['['], [']']⟩
/-- check_pattern.cpp 166 -/
def seqArrayNoName : Seq := ⟨[TYPE], ['['], [']']⟩

/-- State of the loop in `copy_parameters`: scope, current tokens, result. -/
structure CopyState where
  scope : Int := 0
  tokens : Toks := []
  out : List Toks := []

/-- One iteration of the loop of `copy_parameters` (parse.cpp 74-96). -/
def copyStep (st : CopyState) (e : Str) : CopyState :=
  let c := strFront e
  if c = '(' then { st with scope := st.scope + 1, tokens := st.tokens ++ [e] }
  else if c = ')' then { st with scope := st.scope - 1, tokens := st.tokens ++ [e] }
  else if c = ',' then
    if st.scope = 0 then { st with tokens := [], out := st.out ++ [st.tokens] }
    else { st with tokens := st.tokens ++ [e] }
  else { st with tokens := st.tokens ++ [e] }

/-- `copy_parameters` (parse.cpp 69-101) on the tokens of the range. -/
def copyParameters (range : Toks) : List Toks :=
  let st := range.foldl copyStep {}
  if st.tokens.isEmpty then st.out else st.out ++ [st.tokens]

/-- `check_object` (parse.cpp 105-116).  The result `some none` is a C++ `false`. -/
def checkObject (v : Toks) : Ub (Option Proto) := do
  if !(← checkPattern v v.length seqObject) then return none
  let e ← endMinus v 1
  let ty ← slice v 0 e
  let sym ← derefBack v v.length 1
  return some { kind := .object, type := appendStrings [] ty, symbol := sym }

/-- `check_array` (parse.cpp 120-132). -/
def checkArray (v : Toks) (it : Nat) : Ub (Option Proto) := do
  if !(← checkPattern v it seqArray) then return none
  let sym ← derefBack v it 1
  let ty ← slice v 0 (it - 1)
  let br ← slice v it v.length
  return some { kind := .objectArray, type := appendStrings (appendStrings [] ty) br, symbol := sym }

/-- `check_function_pointer` (parse.cpp 136-153). -/
def checkFunctionPointer (v : Toks) (it : Nat) : Ub (Option Proto) := do
  if !(← checkPattern v it seqFunctionPointer) then return none
  let ty ← slice v 0 it
  let params ← slice v (it + 4) v.length
  let sym ← deref v (it + 2)
  return some { kind := .functionPointer
                type := appendStrings (appendStrings [] ty ++ str% "(*)") params
                symbol := sym }

/-- `check_function_paren` (parse.cpp 157-172). -/
def checkFunctionParen (v : Toks) (it : Nat) : Ub (Option Proto) := do
  if !(← checkPattern v it seqFunctionParentheses) then return none
  let ty ← slice v 0 it
  let sym ← deref v (it + 1)
  let e ← endMinus v 1
  let params ← slice v (it + 4) e
  return some { kind := .function, type := appendStrings [] ty, symbol := sym
                argsVec := copyParameters params }

/-- `check_function_paren_pointer` (parse.cpp 176-198). -/
def checkFunctionParenPointer (v : Toks) (it : Nat) : Ub (Option Proto) := do
  let n ← (do
    if ← checkPattern v it seqFunctionParenPointer1 then return some 1
    if ← checkPattern v it seqFunctionParenPointer2 then return some 2
    return none : Ub (Option Nat))
  match n with
  | none => return none
  | some n =>
    let ty ← slice v 0 it
    let ptr ← slice v (it + 1) (it + 1 + n)
    let sym ← deref v (it + 1 + n)
    let e ← endMinus v 2
    let params ← slice v (it + n + 3) e
    return some { kind := .function, type := appendStrings (appendStrings [] ty) ptr, symbol := sym
                  argsVec := copyParameters params }

/-- `check_function` (parse.cpp 202-214). -/
def checkFunction (v : Toks) (it : Nat) : Ub (Option Proto) := do
  if !(← checkPattern v it seqFunction) then return none
  let sym ← derefBack v it 1
  let ty ← slice v 0 (it - 1)
  let e ← endMinus v 1
  let params ← slice v (it + 1) e
  return some { kind := .function, type := appendStrings [] ty, symbol := sym
                argsVec := copyParameters params }

/-- C++ `a || b` for the checks: the second is only run if the first is false. -/
def orElseCheck (a : Ub (Option Proto)) (b : Unit → Ub (Option Proto)) : Ub (Option Proto) := do
  match ← a with
  | some p => return some p
  | none => b ()

/-- `check_prototype` (parse.cpp 218-252). -/
def checkPrototype (v : Toks) : Ub (Option Proto) := do
  if v.length < 2 then return none
  let f ← deref v 0
  if !isIdent (strFront f) then return none
  let it := findFirstNotPointerOrIdent v
  if it = v.length then checkObject v
  else
    let e ← deref v it
    if strFront e = '(' then
      orElseCheck (checkFunction v it) fun _ =>
      orElseCheck (checkFunctionPointer v it) fun _ =>
      orElseCheck (checkFunctionParen v it) fun _ =>
      checkFunctionParenPointer v it
    else if strFront e = '[' then checkArray v it
    else return none

/-- `parse_tokens` (parse.cpp 256-272). -/
def parseTokens : List Toks → Ub (Option (List Proto))
  | [] => some (some [])
  | v :: vs => do
    match ← checkPrototype v with
    | none => return none
    | some p =>
      match ← parseTokens vs with
      | none => return none
      | some ps => return some (p :: ps)

/-- `multiple_definitions` (parse.cpp 52-65): the inner loop compares with all
    earlier entries.  The symbol is returned. -/
def multipleDefinitionsAux : List Proto → List Proto → Option Str
  | _, [] => none
  | earlier, p :: ps =>
    if earlier.any (fun q => p.symbol == q.symbol) then some p.symbol
    else multipleDefinitionsAux (earlier ++ [p]) ps

/-- `multiple_definitions` (parse.cpp 52-65). -/
def multipleDefinitions (v : List Proto) : Option Str := multipleDefinitionsAux [] v

/-- The errors (`throw error(...)`) of `gendlopen::parse`, one constructor per
    message.  The text of the messages is not modelled except for the symbols. -/
inductive ParseErr
  | readFailed                    -- parse.cpp 284
  | nothingInInput                -- parse.cpp 289
  | multipleDefinitions (s : Str) -- parse.cpp 294
  | emptyParam (s : Str)          -- parameter_names.cpp 131, 229
  | typenameOnly (s : Str)        -- parameter_names.cpp 140
  | beginsWithPointer (s : Str)   -- parameter_names.cpp 147, 235
  | missingName (s : Str)         -- parameter_names.cpp 151
  | badParam (s : Str)            -- parameter_names.cpp 174, 264
  | notFound (l : List Str)       -- parse.cpp 363
  | nothingFound                  -- parse.cpp 370
  deriving DecidableEq, Repr

/-- `param_void_or_empty` (parameter_names.cpp 40-67); the first component is the
    C++ return value. -/
def paramVoidOrEmpty (p : Proto) : Bool × Proto :=
  match p.argsVec with
  | [] => (true, p)
  | [[t]] => if eqCase t (str% "void") then (true, { p with args := t }) else (false, p)
  | _ => (false, p)

/-- Decimal digits, `std::to_string`. -/
def natDigits (n : Nat) : Str := Nat.toDigits 10 n

/-- `append_name` (parameter_names.cpp 70-78). -/
def appendName (p : Proto) (count : Nat) (sep : Str) : Proto × Nat :=
  let name := 'a' :: natDigits count
  ({ p with args := p.args ++ name ++ sep, paramNames := p.paramNames ++ name ++ str% ", " },
   count + 1)

/-- `get_array_type` (parameter_names.cpp 81-95); `some none` is C++ `false`. -/
def getArrayType (v : Toks) (it : Nat) (p : Proto) (count : Nat) : Ub (Option (Proto × Nat)) := do
  if !(← checkPattern v it seqArrayNoName) then return none
  let t1 ← slice v 0 it
  let t2 ← slice v it v.length
  let p := { p with args := appendStrings p.args t1 }
  let (p, count) := appendName p count [' ']
  return some ({ p with args := appendStrings p.args t2 ++ str% ", " }, count)

/-- `get_function_pointer_type` (parameter_names.cpp 98-120). -/
def getFunctionPointerType (v : Toks) (it : Nat) (p : Proto) (count : Nat) :
    Ub (Option (Proto × Nat)) := do
  let offset ← (do
    if ← checkPattern v it seqFunctionPointer then return some 3
    if ← checkPattern v it seqFunctionPointerNoName then return some 2
    return none : Ub (Option Nat))
  match offset with
  | none => return none
  | some offset =>
    let t1 ← slice v 0 (it + 2)
    let t2 ← slice v (it + offset) v.length
    let p := { p with args := appendStrings p.args t1 }
    let (p, count) := appendName p count [' ']
    return some ({ p with args := appendStrings p.args t2 ++ str% ", " }, count)

/-- The name of one parameter in `read_parameter_names`, one iteration of the loop
    (parameter_names.cpp 128-178).  `ok none`: nothing appended (`...`). -/
def readParameterName (sym : Str) (v : Toks) : Ub (Except ParseErr (Option Str)) := do
  match v with
  | [] => return .error (.emptyParam sym)
  | [t] => if t = str% "..." then return .ok none else return .error (.typenameOnly sym)
  | _ =>
    let f ← deref v 0
    let b ← derefBack v v.length 1
    if (str% "*").isPrefixOf f then return .error (.beginsWithPointer sym)
    if (str% "*").isSuffixOf b then return .error (.missingName sym)
    let it := findFirstNotPointerOrIdent v
    if ← checkPattern v it seqObject then return .ok (some b)
    if ← checkPattern v it seqFunctionPointer then
      let n ← deref v (it + 2)
      return .ok (some n)
    if ← checkPattern v it seqArray then
      let n ← derefBack v it 1
      return .ok (some n)
    return .error (.badParam sym)

/-- The loop of `read_parameter_names` (parameter_names.cpp 128-178). -/
def readParameterNamesLoop (sym : Str) : List Toks → Str → Ub (Except ParseErr Str)
  | [], names => some (.ok names)
  | v :: vs, names => do
    match ← readParameterName sym v with
    | .error e => return .error e
    | .ok none => readParameterNamesLoop sym vs names
    | .ok (some n) => readParameterNamesLoop sym vs (names ++ n ++ str% ", ")

/-- `read_parameter_names` (parameter_names.cpp 123-183). -/
def readParameterNames (p : Proto) : Ub (Except ParseErr Proto) := do
  match ← readParameterNamesLoop p.symbol p.argsVec p.paramNames with
  | .error e => return .error e
  | .ok names => return .ok { p with paramNames := deleteSuffix names (str% ", ") }

/-- Copying of the parameters in `get_parameter_names` (parameter_names.cpp 197-203). -/
def copyArgs (p : Proto) : Proto :=
  { p with args := stripSpaces (deleteSuffix
      (p.argsVec.foldl (fun b v => appendStrings b v ++ str% ", ") p.args) (str% ", ")) }

/-- `parse::get_parameter_names` (parameter_names.cpp 189-210). -/
def getParameterNames (p : Proto) (mode : ParamNames) : Ub (Except ParseErr Proto) :=
  if p.kind ≠ .function then some (.ok p)
  else match paramVoidOrEmpty p with
    | (true, p) => some (.ok p)
    | (false, p) =>
      if mode = .skip then some (.ok (copyArgs p)) else readParameterNames (copyArgs p)

/-- One iteration of the loop of `create_parameter_names`
    (parameter_names.cpp 226-267). -/
def createParameterName (v : Toks) (p : Proto) (count : Nat) :
    Ub (Except ParseErr (Proto × Nat)) := do
  match v with
  | [] => return .error (.emptyParam p.symbol)
  | f :: rest =>
    if (str% "*").isPrefixOf f then return .error (.beginsWithPointer p.symbol)
    if rest.isEmpty ∧ f = str% "..." then
      return .ok ({ p with args := p.args ++ str% "... , "
                           paramNames := p.paramNames ++ str% "... , " }, count)
    let it := findFirstNotPointerOrIdent v
    if it = v.length then
      return .ok (appendName { p with args := appendStrings p.args v } count (str% ", "))
    match ← getFunctionPointerType v it p count with
    | some r => return .ok r
    | none =>
      match ← getArrayType v it p count with
      | some r => return .ok r
      | none => return .error (.badParam p.symbol)

/-- The loop of `create_parameter_names` (parameter_names.cpp 226-267). -/
def createParameterNamesLoop : List Toks → Proto → Nat → Ub (Except ParseErr Proto)
  | [], p, _ => some (.ok p)
  | v :: vs, p, count => do
    match ← createParameterName v p count with
    | .error e => return .error e
    | .ok (p, count) => createParameterNamesLoop vs p count

/-- `parse::create_parameter_names` (parameter_names.cpp 217-273). -/
def createParameterNames (p : Proto) : Ub (Except ParseErr Proto) :=
  if p.kind ≠ .function then some (.ok p)
  else match paramVoidOrEmpty p with
    | (true, p) => some (.ok p)
    | (false, p) => do
      match ← createParameterNamesLoop p.argsVec p 1 with
      | .error e => return .error e
      | .ok p => return .ok { p with args := deleteSuffix p.args (str% ", ")
                                     paramNames := deleteSuffix p.paramNames (str% ", ") }

/-- The loops over all prototypes in `gendlopen::parse` (parse.cpp 298-312). -/
def doParameters (mode : ParamNames) : List Proto → Ub (Except ParseErr (List Proto))
  | [] => some (.ok [])
  | p :: ps => do
    match ← (if mode = .create then createParameterNames p else getParameterNames p mode) with
    | .error e => return .error e
    | .ok p =>
      match ← doParameters mode ps with
      | .error e => return .error e
      | .ok ps => return .ok (p :: ps)

/-- State of the filter: the symbols (with `saved` flags), `m_symbol_list`,
    `m_prototypes` and `m_objects`. -/
structure FilterState where
  protos : List Proto
  objs : List Proto
  deriving DecidableEq, Repr

/-- The lambda `save_symbol` (parse.cpp 316-327): appends a copy of the entry to
    the prototypes or objects unless it was saved before, and sets the flag. -/
def saveSymbol (p : Proto) (st : FilterState) : Proto × FilterState :=
  if p.saved then (p, st)
  else if p.kind = .function then
    ({ p with saved := true }, { st with protos := st.protos ++ [p] })
  else
    ({ p with saved := true }, { st with objs := st.objs ++ [p] })

/-- The loops of parse.cpp 333-335 and 338-342: save all entries that satisfy `f`. -/
def savePass (f : Proto → Bool) : List Proto → FilterState → List Proto × FilterState
  | [], st => ([], st)
  | p :: ps, st =>
    if f p then
      let (p', st') := saveSymbol p st
      let (ps', st'') := savePass f ps st'
      (p' :: ps', st'')
    else
      let (ps', st') := savePass f ps st
      (p :: ps', st')

/-- `std::erase(m_symbol_list, s)`: the remaining list. -/
def eraseAll (l : List Str) (s : Str) : List Str := l.filter (fun e => !(e == s))

/-- The loop of parse.cpp 347-351. -/
def listPass : List Proto → List Str → FilterState → List Str × FilterState
  | [], l, st => (l, st)
  | p :: ps, l, st =>
    if (eraseAll l p.symbol).length < l.length then
      listPass ps (eraseAll l p.symbol) (saveSymbol p st).2
    else listPass ps (eraseAll l p.symbol) st

/-- The filter part of `gendlopen::parse` (parse.cpp 314-371), with
    `m_prefix_list = prefixes`, `m_symbol_list = symbols`.  The error for missing
    symbols carries the unsorted rest of the list. -/
def filterSymbols (v : List Proto) (prefixes symbols : List Str) :
    Except ParseErr FilterState :=
  let mode := getFilterMode prefixes symbols
  let r : Except ParseErr FilterState :=
    if mode = .none then .ok (savePass (fun _ => true) v ⟨[], []⟩).2
    else
      let (v, st) :=
        if mode = .prefix ∨ mode = .pfxList then
          savePass (fun e => isPrefixed e.symbol prefixes) v ⟨[], []⟩
        else (v, ⟨[], []⟩)
      if mode = .list ∨ mode = .pfxList then
        let (rest, st) := listPass v symbols st
        if rest.isEmpty then .ok st else .error (.notFound rest)
      else .ok st
  match r with
  | .error e => .error e
  | .ok st => if st.protos.isEmpty && st.objs.isEmpty then .error .nothingFound else .ok st

/-- `gendlopen::parse` (parse.cpp 277-372): the resulting `m_prototypes` and
    `m_objects`. -/
def gendlopenParse (vecTokens : List Toks) (mode : ParamNames) (prefixes symbols : List Str) :
    Ub (Except ParseErr FilterState) := do
  match ← parseTokens vecTokens with
  | none => return .error .readFailed
  | some v =>
    if v.isEmpty then return .error .nothingInInput
    match multipleDefinitions v with
    | some s => return .error (.multipleDefinitions s)
    | none =>
      match ← doParameters mode v with
      | .error e => return .error e
      | .ok v => return filterSymbols v prefixes symbols

end Gdo
