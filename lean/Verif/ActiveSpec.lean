import Verif.PredictProps

/-!
# Vocabulary for rulesets which have the same active rules at a point
-/

namespace Verif.Spec

open Verif Vote RuleSet RuleSetProps

/-- At point `i`, the same rules of the two lists are active, in whatever order. -/
def SameVoters (on : Rule → Nat → Bool) (i : Nat) (rules rules' : List Rule) : Prop :=
  (rules.filter fun r => on r i).Perm (rules'.filter fun r => on r i)

/-- The ruleset predicts without stacked activations. -/
def Unstacked (R : RsEnv) (s : RuleSet) : Prop := R.stackedFit = false ∨ s.stacked = none

/-- The ruleset predicts with stacked activations; those it has, if no features are given, are the ones of its rules. -/
def StackedPredict (R : RsEnv) (k : Kind) (xs : Option Xs) (n : Nat) (on : Rule → Nat → Bool) (s : RuleSet) : Prop :=
  R.stackedFit = true ∧ (∀ m ∈ s.rules, m.kind = k) ∧ DifferentNames (voteEnv R k) (rulesOf s) ∧
    ∃ c, s.stacked = some c ∧ (xs = none → c = stackOf (voteEnv R k) (rulesOf s) n on)

/-- A ruleset of regression rules which can predict with weights: the weights are not negative, one is not zero, and, without stacked
activations, no weighted sum which the prediction is made of is zero (C21). -/
structure WeightedMeans (R : RsEnv) (xs : Option Xs) (w : WeightsArg) (n : Nat) (on : Rule → Nat → Bool) (p wt : Rule → Rat)
    (s : RuleSet) : Prop where
  kind : s.ruleType = some .regression
  rules : Regressors (voteEnv R .regression) xs (rulesOf s) n on p
  weights : WeightsGiven (voteEnv R .regression) (rulesOf s) wt w
  positive : ∀ r ∈ rulesOf s, 0 ≤ wt r
  mode : Unstacked R s ∧ (∃ r ∈ rulesOf s, wt r ≠ 0) ∧ ((voters (rulesOf s) wt).length = 1 ∨
      ((∀ i < n, activeSum (rulesOf s) on wt i ≠ 0 → activeSum (rulesOf s) on (fun r => p r * wt r) i ≠ 0) ∧
        ∀ r rest, voters (rulesOf s) wt = r :: rest → p r ≠ 0)) ∨
    StackedPredict R .regression xs n on s ∧ ∃ r ∈ rulesOf s, wt r ≠ 0 ∧ ∃ i < n, on r i = true

/-- A ruleset of regression rules which can predict without weights (C22) -/
structure PlainMeans (R : RsEnv) (xs : Option Xs) (n : Nat) (on : Rule → Nat → Bool) (p : Rule → Rat) (s : RuleSet) : Prop where
  kind : s.ruleType = some .regression
  rules : Regressors (voteEnv R .regression) xs (rulesOf s) n on p
  nonempty : s.rules ≠ []
  mode : Unstacked R s ∧ (s.rules.length = 1 ∨ ((∀ i < n, activeCount (rulesOf s) on i ≠ 0 → activeSum (rulesOf s) on p i ≠ 0) ∧
      ∀ r rest, rulesOf s = r :: rest → p r ≠ 0)) ∧ (∀ i < n, activeCount (rulesOf s) on i < 256) ∧
      (s.rules.length = 1 ∨ xs ≠ none ∨ ∀ r rest, rulesOf s = r :: rest → R.storedRaw r = false) ∨
    StackedPredict R .regression xs n on s

/-- A ruleset of classification rules which can predict with weights (C23) -/
structure WeightedVotes (R : RsEnv) (xs : Option Xs) (w : WeightsArg) (n : Nat) (on : Rule → Nat → Bool) (c : Rule → Label)
    (wt : Rule → Rat) (s : RuleSet) : Prop where
  kind : s.ruleType = some .classification
  rules : Classifiers (voteEnv R .classification) xs (rulesOf s) n on c
  weights : WeightsGiven (voteEnv R .classification) (rulesOf s) wt w
  positive : ∀ r ∈ rulesOf s, 0 ≤ wt r
  active : ∃ r ∈ rulesOf s, wt r ≠ 0 ∧ ∃ i < n, on r i = true
  mode : Unstacked R s

/-- Of the rules which have a weight and are active at point `i`, those with the greatest weight -/
def HeaviestAt (rules : List Rule) (on : Rule → Nat → Bool) (wt : Rule → Rat) (i : Nat) (r : Rule) : Prop :=
  wt r ≠ 0 ∧ on r i = true ∧ ∀ s ∈ rules, wt s ≠ 0 → on s i = true → wt s ≤ wt r

/-- A ruleset of classification rules which can predict with weights and stacked activations: the heaviest rules `top` decide two points
at least (C23). -/
structure StackedVotes (R : RsEnv) (xs : Option Xs) (w : WeightsArg) (n : Nat) (on : Rule → Nat → Bool) (c : Rule → Label)
    (wt : Rule → Rat) (top : Rule → Nat → Bool) (s : RuleSet) : Prop where
  kind : s.ruleType = some .classification
  rules : Classifiers (voteEnv R .classification) xs (rulesOf s) n on c
  weights : WeightsGiven (voteEnv R .classification) (rulesOf s) wt w
  stacked : StackedPredict R .classification xs n on s
  type : SameType ((rulesOf s).map c)
  named : ∀ r ∈ rulesOf s, c r ≠ .text "nan"
  heaviest : ∀ r ∈ rulesOf s, ∀ i < n, top r i = true ↔ HeaviestAt (rulesOf s) on wt i r
  decided : ∃ i < n, ∃ j < n, i ≠ j ∧ (∃ a, Wins (rulesOf s) top c (fun _ => 1) a i) ∧ ∃ b, Wins (rulesOf s) top c (fun _ => 1) b j

/-- A ruleset of classification rules which can predict without weights; with stacked activations, two points at least are decided
(C24). -/
structure PlainVotes (R : RsEnv) (xs : Option Xs) (n : Nat) (on : Rule → Nat → Bool) (c : Rule → Label) (s : RuleSet) : Prop where
  kind : s.ruleType = some .classification
  rules : Classifiers (voteEnv R .classification) xs (rulesOf s) n on c
  mode : Unstacked R s ∧ (∃ r ∈ rulesOf s, ∃ i < n, on r i = true) ∨
    StackedPredict R .classification xs n on s ∧ SameType ((rulesOf s).map c) ∧ (∀ r ∈ rulesOf s, c r ≠ .text "nan") ∧
      ∃ i < n, ∃ j < n, i ≠ j ∧ (∃ a, Wins (rulesOf s) on c (fun _ => 1) a i) ∧ ∃ b, Wins (rulesOf s) on c (fun _ => 1) b j

end Verif.Spec
