import Verif.Model.Template
import Verif.Spec.CLiteral

/-!
Specification of template files: the text that a list of entries stands for.
-/

namespace Gdo.Tpl
open Gdo

/-- The text of an entry with the continuation marks re-inserted: the mark stands
    before the line end, which is CR LF or LF. -/
def marked : Str → Str
  | '\r' :: '\n' :: s => str% "@\r\n" ++ marked s
  | '\n' :: s => str% "@\n" ++ marked s
  | c :: s => c :: marked s
  | [] => []

/-- Texts joined by newlines. -/
def joinLines : List Str → Str
  | [] => []
  | [x] => x
  | x :: y :: r => x ++ str% "\n" ++ joinLines (y :: r)

/-- The text that a list of entries stands for. -/
def textOf (es : List Entry) : Str := joinLines (es.map fun e => marked e.data)

/-- Flag and line count agree with the text of an entry. -/
def Consistent (e : Entry) : Prop :=
  e.lineCount = nlCount e.data + 1 ∧ (e.maybeKeyword = true ↔ '%' ∈ e.data)

/-- An entry that a line of a template file can stand for: it does not end on a
    continuation mark. -/
def LineEntry (e : Entry) : Prop :=
  Consistent e ∧ ¬ (str% "@") <:+ e.data ∧ ¬ (str% "@\r") <:+ e.data

/-- The entry that the compiler makes of an embedded entry: the literals are
    decoded and concatenated. -/
def compiled (l : LitEntry) : Option Entry :=
  (CLit.decodeAll l.lits).map fun s => ⟨CLit.cString s, l.percent, l.count⟩

/-- The compiled entries of an embedded template, `none` if it does not compile. -/
def compiledAll : List LitEntry → Option (List Entry)
  | [] => some []
  | l :: ls => do
    let x ← compiled l
    let y ← compiledAll ls
    return x :: y

end Gdo.Tpl
