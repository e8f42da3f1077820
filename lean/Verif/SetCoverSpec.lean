import Verif.RuleSetSpec

/-!
# Vocabulary for C80
-/

namespace Verif.Spec

open Verif

/-- The activation of the rule marks the point `i`. -/
def Marks (m : Member) (i : Nat) : Prop := ∃ v, m.rule.act = some v ∧ v[i]? = some 1

/-- No point is marked by both rules. -/
def Disjoint (m m' : Member) : Prop := ∀ i, ¬ (Marks m i ∧ Marks m' i)

/-- Nobody assigned the coverage of the rule. -/
def Computed (m : Member) : Prop := m.rule.actCoverage = none

/-- The coverage `p` of the ruleset and the coverages `q` of its rules: none of the rules covers more than the ruleset; the ruleset covers at most
everything and at most the sum of the coverages of its rules, and it covers this sum exactly when no two rules have a point in common. -/
structure CoverageBounds (s : RuleSet) (p : Rat) (q : Member → Rat) : Prop where
  own : s.rulesetCoverage = .num (.fin p)
  rules : ∀ m ∈ s.rules, m.rule.getCoverage = .ok (.num (.fin (q m)))
  nonneg : ∀ m ∈ s.rules, 0 ≤ q m
  each : ∀ m ∈ s.rules, q m ≤ p
  one : p ≤ 1
  sum : p ≤ (s.rules.map q).sum
  exact_sum : p = (s.rules.map q).sum ↔ s.rules.Pairwise Disjoint

end Verif.Spec
