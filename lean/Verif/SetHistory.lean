import Verif.StackedFit
import Verif.Save
import Verif.Tree

/-!
# Histories of rulesets

What can happen to a ruleset, whether the calls raise or not.
-/

namespace Verif.Spec

open Verif Vote

/-- A call on a ruleset, other than `+=` with another ruleset and assignments to `rules` -/
inductive SetCall where
  /-- `s += rule` -/
  | iaddRule (m : Member)
  /-- `s.append(rule, update_activation)` -/
  | append (m : Member) (update : Bool)
  /-- `s.sort(criterion, reverse)` -/
  | sort (criterion : Option String) (reverse : Bool)
  /-- `s.fit(y, xs, force_if_not_good)` -/
  | fit (y : List Label) (xs : Option Xs) (force : Bool) (kw : Rule.Kw)
  /-- `s.eval(y, xs, keep_new_activations, weights, force_if_not_good)` -/
  | eval (y : List Label) (xs : Option Xs) (keep : Bool) (w : Option WeightsArg) (force : Bool) (kw : Rule.Kw)
  /-- `s.predict(xs, weights)` -/
  | predict (xs : Option Xs) (w : Option WeightsArg)
  /-- `s.calc_criterion(...)` -/
  | calcCriterion (y : List Label) (xs : Option Xs) (w : Option WeightsArg) (kw : Rule.Kw)
  /-- `s.calc_activation(xs)` -/
  | calcActivation (xs : Xs)
  /-- `s.compute_self_activation(xs)` -/
  | computeSelf (xs : Option Xs)
  /-- `s.compute_stacked_activation(xs)` -/
  | computeStacked (xs : Option Xs)
  /-- `s.load(path)` of a saved table -/
  | load (W : Save.Texts) (by_ : String) (t : Option Save.Table)

/-- What the call does to the ruleset; `fit` and `eval` depend on the class attribute `STACKED_FIT`. -/
def SetCall.after (R : RsEnv) (s : RuleSet) : SetCall → RuleSet
  | .iaddRule m => (RuleSet.iaddRule R m s).2
  | .append m u => (RuleSet.append R m u s).2
  | .sort c r => (RuleSet.sort R c r s).2
  | .fit y xs force kw => if R.stackedFit then (RuleSet.fitStacked R y xs kw s).2 else (RuleSet.fit R y xs force kw s).2
  | .eval y xs keep w force kw =>
    if R.stackedFit then (RuleSet.evalStacked R y xs keep w kw s).2 else (RuleSet.eval R y xs keep w force kw s).2
  | .predict xs w => (RuleSet.predict R xs w s).2
  | .calcCriterion y xs w kw => (RuleSet.calcCriterion R y xs w kw s).2
  | .calcActivation xs => (RuleSet.calcActivation R xs s).2
  | .computeSelf xs => (RuleSet.computeSelf R xs s).2
  | .computeStacked xs => (RuleSet.computeStacked R xs s).2
  | .load W by_ t => (Save.load W R by_ t s).2

/-- The rulesets which exist after any number of calls, which may raise, and of assignments to `rules` of lists allowed by `A`;
`A s rules` is about the ruleset before the assignment. -/
inductive Lived (R : RsEnv) (A : RuleSet → List Member → Prop) : RuleSet → Prop where
  /-- `RuleSet(stack_activation=b)` -/
  | blank (b : Bool) : Lived R A (RuleSet.blank b)
  /-- `RuleSet(rules, compute_activation, stack_activation)` -/
  | make {rules c b s} : RuleSet.make R rules c b = .ok s → Lived R A s
  /-- The rules of a decision tree -/
  | extract {I s} : Tree.extract R I = .ok s → Lived R A s
  /-- A call, whether it raises or not -/
  | call {s} (c : SetCall) : Lived R A s → Lived R A (c.after R s)
  /-- `s += other`, whether it raises or not -/
  | iaddSet {s o} : Lived R A s → Lived R A o → Lived R A (RuleSet.iaddSet R o s).2
  /-- `s + rule` -/
  | addRule {s m s'} : Lived R A s → RuleSet.addRule R s m = .ok s' → Lived R A s'
  /-- `s + other` -/
  | addSet {s o s'} : Lived R A s → Lived R A o → RuleSet.addSet R s o = .ok s' → Lived R A s'
  /-- `s[start:stop:step]` -/
  | slice {s start stop step s'} : Lived R A s → RuleSet.slice R s start stop step = .ok s' → Lived R A s'
  /-- `s.rules = rules`, whether it raises or not -/
  | setRules {s rules} : Lived R A s → A s rules → Lived R A (RuleSet.setRules R rules s).2

/-- All rules are of the class which the ruleset announces as `rule_type`. -/
def Announced (s : RuleSet) : Prop := ∀ m ∈ s.rules, s.ruleType = some m.kind

end Verif.Spec
