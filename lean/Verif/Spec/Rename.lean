import Verif.Basic

/-!
Specification: a text is a sequence of words (longest runs of letters, digits and
underscores) and other characters; renaming changes the words only.
-/

namespace Gdo.Rename
open Gdo

/-- A word or another character. -/
inductive Piece
  | word (w : Str)
  | other (c : Char)
  deriving DecidableEq, Repr

/-- The text of a piece. -/
def Piece.text : Piece → Str
  | .word w => w
  | .other c => [c]

/-- The text of a list of pieces. -/
def textOf (ps : List Piece) : Str := ps.flatMap Piece.text

/-- Words are made of word characters and are as long as possible. -/
def Valid : List Piece → Prop
  | [] => True
  | .other c :: r => isWord c = false ∧ Valid r
  | .word w :: r => w ≠ [] ∧ (∀ c ∈ w, isWord c = true) ∧ (∀ w', r.head? ≠ some (.word w')) ∧ Valid r

/-- `f` applied to the words. -/
def mapWords (f : Str → Str) (ps : List Piece) : List Piece :=
  ps.map fun p => match p with
    | .word w => .word (f w)
    | .other c => .other c

/-- The new name of an identifier, `upper` and `lower` being the new prefixes. -/
def newName (upper lower w : Str) : Str :=
  if (str% "GDO_").isPrefixOf w then upper ++ str% "_" ++ w.drop 4
  else if (str% "_GDO_").isPrefixOf w then str% "_" ++ upper ++ str% "_" ++ w.drop 5
  else if (str% "gdo_").isPrefixOf w then lower ++ str% "_" ++ w.drop 4
  else if (str% "_gdo_").isPrefixOf w then str% "_" ++ lower ++ str% "_" ++ w.drop 5
  else if w = str% "gdo" then lower
  else w

/-- Two words `gdo` with exactly one character between them. -/
def GdoPair (ps : List Piece) : Prop :=
  ∃ a c b, ps = a ++ [.word (str% "gdo"), .other c, .word (str% "gdo")] ++ b

end Gdo.Rename
