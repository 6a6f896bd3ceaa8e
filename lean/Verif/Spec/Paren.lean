import Verif.Model.Parse

/-!
Specification of balanced token lists as trees and of the removal of doubled
parentheses.
-/

namespace Gdo.Spec

/-- A token that is not a parenthesis. -/
def NotParen (t : Str) : Prop := t.head? ≠ some '(' ∧ t.head? ≠ some ')'

instance (t : Str) : Decidable (NotParen t) := inferInstanceAs (Decidable (_ ∧ _))

/-- A balanced token list: tokens and groups in parentheses. -/
inductive Forest
  | nil
  | tok (t : Str) (rest : Forest)
  | grp (inner rest : Forest)
  deriving DecidableEq, Repr

/-- The tokens of a balanced list. -/
def Forest.print : Forest → Toks
  | nil => []
  | tok t r => t :: r.print
  | grp i r => ['('] :: (i.print ++ [')'] :: r.print)

/-- The tokens outside of parentheses are no parentheses. -/
def Forest.Valid : Forest → Prop
  | nil => True
  | tok t r => NotParen t ∧ r.Valid
  | grp i r => i.Valid ∧ r.Valid

/-- No group consists of one group only. -/
def Forest.NoDouble : Forest → Prop
  | nil => True
  | tok _ r => r.NoDouble
  | grp i r => (∀ j, i ≠ .grp j .nil) ∧ i.NoDouble ∧ r.NoDouble

/-- Replace each group that consists of one group only by that group. -/
def Forest.collapse : Forest → Forest
  | nil => nil
  | tok t r => .tok t r.collapse
  | grp i r =>
    match i.collapse with
    | .grp j .nil => .grp j r.collapse
    | i' => .grp i' r.collapse

/-- A group that begins with a group consists of that group only. -/
def Forest.Simple : Forest → Prop
  | nil => True
  | tok _ r => r.Simple
  | grp i r => (∀ j k, i = .grp j k → k = .nil) ∧ i.Simple ∧ r.Simple

/-- Parentheses are balanced (`n` are open in front). -/
def balanced : Nat → Toks → Bool
  | n, [] => n == 0
  | n, t :: ts =>
    if t.head? = some '(' then balanced (n + 1) ts
    else if t.head? = some ')' then (match n with | 0 => false | m + 1 => balanced m ts)
    else balanced n ts

end Gdo.Spec
