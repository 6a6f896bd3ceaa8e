import Verif.Spec.Source
import Verif.Spec.Decl

/-!
What it means that a text consists of given tokens, apart from white space.
-/

namespace Gdo.Spec
open Gdo

/-- The tokens of declarations: words other than `extern` (which is skipped) and
    `TranslationUnitDecl` (which begins a Clang AST), punctuation, `...`. -/
def Lexeme (t : Str) : Prop :=
  (IdentTok t ∧ t ≠ str% "extern" ∧ t ≠ str% "TranslationUnitDecl") ∨
  (∃ c ∈ ['*', ',', '(', ')', '[', ']'], t = [c]) ∨ t = ['.', '.', '.']

instance (t : Str) : Decidable (Lexeme t) := inferInstanceAs (Decidable (_ ∨ _ ∨ _))

/-- The text consists of these tokens and white space, where no two words touch. -/
inductive Spells : Str → List Str → Prop
  | nil : Spells [] []
  | space (c : Char) (s : Str) (ts : List Str) : isSpace c = true → Spells s ts → Spells (c :: s) ts
  | punct (c : Char) (s : Str) (ts : List Str) : c ∈ ['*', ',', '(', ')', '[', ']'] → Spells s ts → Spells (c :: s) ([c] :: ts)
  | dots (s : Str) (ts : List Str) : Spells s ts → Spells ('.' :: '.' :: '.' :: s) (['.', '.', '.'] :: ts)
  | word (w s : Str) (ts : List Str) : IdentTok w → w ≠ str% "extern" → w ≠ str% "TranslationUnitDecl" →
      (∀ c, s.head? = some c → isWord c = false) → Spells s ts → Spells (w ++ s) (w :: ts)

end Gdo.Spec
