import Verif.ShowText
import Verif.RuleSet

/-!
# Texts of rules

`str` of a rule, `/repo/ruleskit/rule.py` lines 298-304, and of the rules of a ruleset, `/repo/ruleskit/ruleset.py` lines 190-198.

Simplifications: a rule has a condition (lines 302-303 are about a rule without one); the text of the classes with their frequencies, which a
fitted classification rule holds as its prediction, is given.
-/

namespace Verif

namespace PyText

/-- The text of a prediction, `/repo/ruleskit/rule.py` lines 299-301 and 304; `probs` is `str` of a list of classes and frequencies -/
def prediction (F : Floats) (probs : List (Label × Rat) → List Char) : Pred → List Char
  | .none => "<prediction unset>".toList
  | .label (.num x) => num F x
  | .label (.text s) => s.toList
  | .probs p => probs p

/-- `str` of a rule, `/repo/ruleskit/rule.py` lines 298-304 -/
def rule (F : Floats) (probs : List (Label × Rat) → List Char) (r : Rule) : Except Err (List Char) := do
  let t ← condition F r.cond
  .ok ('I' :: 'f' :: ' ' :: (t ++ ' ' :: 'T' :: 'h' :: 'e' :: 'n' :: ' ' :: (prediction F probs r.prediction ++ ['.'])))

/-- `str` of a ruleset, `/repo/ruleskit/ruleset.py` lines 190-198; `k` is `NLINES`. Only the texts which are shown are made. -/
def rulesetText (F : Floats) (probs : List (Label × Rat) → List Char) (k : Nat) (s : RuleSet) : Except Err (List Char) :=
  if s.rules.length < 2 * k then (s.rules.mapM fun m : Member => rule F probs m.rule).map joinLines
  else do
    let a ← (s.rules.take k).mapM fun m : Member => rule F probs m.rule
    let b ← (s.rules.drop (s.rules.length - k)).mapM fun m : Member => rule F probs m.rule
    .ok (joinLines (a ++ [['.', '.', '.']] ++ b))

end PyText

end Verif
