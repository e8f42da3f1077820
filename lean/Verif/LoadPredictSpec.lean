import Verif.RuleSetFit
import Verif.SaveSpec

/-!
# Which predictions should survive saving and loading (C83)
-/

namespace Verif.Spec

open Verif Vote

/-- Weights which do not come from what is not saved: none, weights by name of rule, or an attribute which is saved -/
def SavedWeights (k : Kind) : Option WeightsArg → Prop
  | none => True
  | some (.series _) => True
  | some (.attr name) => name ∈ ["prediction", "coverage", "criterion"] ∨ k = .regression ∧ name ∈ ["zscore", "std"]

/-- Predictions are not made from stacked activations: `STACKED_FIT` is not set, or the ruleset has none. -/
def NotStacked (R : RsEnv) (s : RuleSet) : Prop := R.stackedFit = false ∨ s.stacked = none

/-- What the theorems suppose: the ruleset `s` has rules which can be read back, `t` is the table which is saved, and `s'` is what is
loaded from it by a ruleset which has no stacked activations, as a new one. -/
structure Reloaded (W : Save.Texts) (R : RsEnv) (by_ : String) (s : RuleSet) (t : Save.Table) (s0 s' : RuleSet) : Prop where
  exact : ∀ x, W.csvRound x = x
  kinds : ∀ m ∈ s.rules, s.ruleType = some m.kind
  rules : ∀ m ∈ s.rules, Save.Loadable W R by_ m
  size : Save.IsSize s.trainSize
  fresh : s0.stacked = none
  saved : Save.toTable W R s = .ok (some t)
  loaded : Save.load W R by_ (some t) s0 = (.ok (), s')

end Verif.Spec
