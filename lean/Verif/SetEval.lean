import Verif.StackedFit

/-!
# Rulesets evaluated on features
-/

namespace Verif.RuleSet

/-- `evaluate`, `/repo/ruleskit/ruleset.py` lines 829-845.  Unlike `evaluate_self_activation`, it has no other way of making the
union, and treats one rule as several. -/
def evaluate (R : RsEnv) (s : RuleSet) (xs : Xs) : Except Err (List Nat) :=
  if s.rules.length = 0 then .error .valueError
  else do
    let acts ← s.rules.mapM fun m : Member => m.rule.evaluateActivation (R.ofKind m.kind) xs
    multiOr R acts

end Verif.RuleSet
