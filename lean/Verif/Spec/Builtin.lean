import Verif.Spec.Rename
import Verif.Spec.Substitute
import Verif.Spec.Template
import Verif.Spec.TemplateLines

/-!
Specification of what a template stands for: its lines with continuation marks are
joined, identifiers are renamed, keywords are replaced, lines with keywords are
repeated for each symbol, and sections are shown or not.
-/

namespace Gdo.Tmpl
open Gdo Rename

/-! ### Lines -/

/-- A line without the continuation mark at its end, `none` if it has none. -/
def stripMark : Str → Option Str
  | [] => none
  | [c] => if c = '@' then some [] else none
  | c :: d :: r => (stripMark (d :: r)).map (c :: ·)

/-- Lines joined to blocks: a line with a continuation mark belongs to the next one. -/
def blocks : List Str → List (List Str)
  | [] => []
  | l :: ls =>
    match stripMark l with
    | none => [l] :: blocks ls
    | some l' =>
      match blocks ls with
      | [] => [[l']]
      | b :: bs => (l' :: b) :: bs

/-! ### Words and keywords -/

/-- The words and other characters of a text. -/
def pieces : Str → List Piece
  | [] => []
  | c :: s =>
    if isWord c then
      match pieces s with
      | .word w :: r => .word (c :: w) :: r
      | r => .word [c] :: r
    else .other c :: pieces s

/-- A part of a template line. -/
inductive Part
  | word (w : Str)
  | other (c : Char)
  | kw (name : Str)
  deriving DecidableEq, Repr

/-- The keyword that the pieces begin with: its name between two percent signs on either
    side. -/
def keywordAt : List Piece → Option Str
  | .other c1 :: .other c2 :: .word k :: .other c3 :: .other c4 :: _ =>
    if c1 == '%' && c2 == '%' && c3 == '%' && c4 == '%' && (kindOf k).isSome then some k else none
  | _ => none

/-- The parts behind the first `n` pieces. -/
def partsFrom : Nat → List Piece → List Part
  | _, [] => []
  | n + 1, _ :: r => partsFrom n r
  | 0, p :: r =>
    match keywordAt (p :: r) with
    | some k => .kw k :: partsFrom 4 r
    | none =>
      match p with
      | .word w => .word w :: partsFrom 0 r
      | .other c => .other c :: partsFrom 0 r

/-- The parts of a line. -/
def parts (s : Str) : List Part := partsFrom 0 (pieces s)

/-- How a part is written. -/
def Part.source : Part → Str
  | .word w => w
  | .other c => [c]
  | .kw k => str% "%%" ++ k ++ str% "%%"

/-- A line with the words renamed and all keywords replaced by their values at once;
    `eat`: a blank is left out if it comes next. -/
def fillIn (upper lower : Str) (val : Values) : Bool → List Part → Str
  | _, [] => []
  | _, .word w :: r => newName upper lower w ++ fillIn upper lower val false r
  | eat, .other c :: r => if eat && c == ' ' then fillIn upper lower val false r else c :: fillIn upper lower val false r
  | _, .kw k :: r =>
    match val k with
    | some (v, eat) => v ++ fillIn upper lower val eat r
    | none => str% "%%" ++ k ++ str% "%%" ++ fillIn upper lower val false r

/-- The class of the first keyword. -/
def firstKind : List Part → Option Kind
  | [] => none
  | .kw k :: _ => kindOf k
  | _ :: r => firstKind r

/-- The texts that a line stands for: one for each function, object or symbol if it has
    such keywords, else one. -/
def written (upper lower : Str) (protos objs : List Proto) (data : Str) : List Str :=
  let ps := parts data
  match firstKind ps with
  | some .function => protos.map fun p => fillIn upper lower (functionValues (width protos) p) false ps
  | some .object => objs.map fun p => fillIn upper lower (objectValues (width objs) p) false ps
  | some .symbol =>
    (protos.map fun p => fillIn upper lower (symbolValues (functionPointer p) p.symbol) false ps) ++
    (objs.map fun p => fillIn upper lower (symbolValues (objectPointer p) p.symbol) false ps)
  | none => [fillIn upper lower (fun _ => none) false ps]

/-- The marker that a line is. -/
def markerLine (l : Str) : Option Marker :=
  if l = str% "%PARAM_SKIP_REMOVE_BEGIN%" then some .remove
  else if l = str% "%PARAM_SKIP_USE_BEGIN%" then some .use
  else if l = str% "%PARAM_SKIP_END%" then some .stop
  else none

/-- The lines of a template that are shown; `m` is the last marker. -/
def shown (names : ParamNames) : Option Marker → List Str → List Str
  | _, [] => []
  | m, l :: ls =>
    match markerLine l with
    | some x => shown names (some x) ls
    | none => if Shown names m then l :: shown names m ls else shown names m ls

/-- The texts of all the lines of a template file. -/
def instantiate (upper lower : Str) (names : ParamNames) (protos objs : List Proto) (lines : List Str) : List Str :=
  (shown names none ((blocks lines).map Tpl.joinLines)).flatMap (written upper lower protos objs)

end Gdo.Tmpl
