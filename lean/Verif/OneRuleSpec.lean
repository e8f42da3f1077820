import Verif.RuleSetFit

/-!
# Vocabulary for C91
-/

namespace Verif.Spec

open Verif

/-- A ruleset which has this one rule -/
structure HasOne (s : RuleSet) (m : Member) : Prop where
  rules : s.rules = [m]
  type : s.ruleType = some m.kind

/-- There are points: features of at least one row, or the activation which the rule remembers, of zeros and ones. -/
def OnPoints (xs : Option Xs) (r : Rule) : Prop :=
  (∀ x, xs = some x → x.length ≠ 0) ∧ (xs = none → ∀ v, r.act = some v → ∀ a ∈ v, a ≤ 1)

/-- The rule does not predict a text. -/
def NoText (E : Env) (r : Rule) : Prop := ∀ t, r.getPrediction E ≠ .ok (some (.text t))

end Verif.Spec
