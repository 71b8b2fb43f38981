import Verif.Grammar

/-!
# Specification: the condition that a text begins with

The condition parser of the generator does not look at what follows a condition.  Which condition a text begins with is
said here with the grammar alone: nothing for a blank text, and otherwise the longest condition at the front, where a
number that goes on is not a number of the condition.  Nothing here is code of /repo.
-/

namespace Verif.Grammar
open Verif Spec Uts35

/-- The cut between the two texts is not inside a number. -/
def NumberEnds (t u : Str) : Prop := ∀ (j k : Fin 10) a v, t = a ++ [digitChar j] → u ≠ digitChar k :: v

/-- The condition is at the front of the text, as `t`; the last list may be missing. -/
def FrontCondition (bits : Nat) (s t : Str) (c : Condition) : Prop :=
  ∃ u, s = t ++ u ∧ NumberEnds t u ∧ (CondText bits t c ∨ OpenCondText bits t c)

/-- The condition that the text begins with. -/
def ConditionOf (bits : Nat) (s : Str) (c : Condition) : Prop :=
  (NoCondition s ∧ c = []) ∨ ∃ t, FrontCondition bits s t c ∧ ∀ t' c', FrontCondition bits s t' c' → t'.length ≤ t.length

end Verif.Grammar
