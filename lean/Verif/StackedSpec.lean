import Verif.StackedFit
import Verif.RuleSetSpec
import Verif.RuleFit
import Verif.RuleSpec

/-!
# Vocabulary for stacked fit and eval
-/

namespace Verif.Spec

open Verif

/-- The attributes of a rule which are not modelled see its prediction only through `prediction`. -/
def SeesPrediction (E : Env) : Prop :=
  ∀ (r : Rule) (p q : Pred) (name : String), Rule.getPrediction E { r with prediction := p } = Rule.getPrediction E { r with prediction := q } →
    E.extra { r with prediction := p } name = E.extra { r with prediction := q } name

/-- The same rule after a fit: same condition, activation and verdict, and the same figures if it is good. -/
structure SameFit (E : Env) (r r' : Rule) : Prop where
  cond : r'.cond = r.cond
  act : r'.act = r.act
  good : r'.good = r.good
  bad : r'.badBecause = r.badBecause
  fitted : r'.fitted = r.fitted
  prediction : r.good = true → r'.getPrediction E = r.getPrediction E
  std : r.good = true → r'.std = r.std
  sign : r.good = true → r'.sign = r.sign
  zscore : r.good = true → r'.zscore = r.zscore
  size : r.good = true → r'.trainSize = r.trainSize

/-- Classes with which stacked and plain fit can agree: finite numbers; or texts, neither empty nor "zero", when the texts of the
frequencies are in the order of the frequencies. -/
def PlainClasses (S : RFun.FloatStr) (l : List Label) : Prop :=
  (∀ c ∈ l, ∃ q, c = .num (.fin q)) ∨
    (∀ c ∈ l, ∃ s, c = .text s ∧ s ≠ "" ∧ s ≠ "zero") ∧
      ∀ i j : Nat, 0 < i → i < j → j ≤ l.length → S ((i : Rat) / l.length) < S ((j : Rat) / l.length)

/-- What the stacked and the plain fit of a rule can agree on: its activation `u` is known for every target, and for numbers not
exactly one point is activated. -/
def Comparable (E : Env) (y : List Label) (xs : Option Xs) (r : Rule) : Prop :=
  ∃ u : List Bool, Rule.Uses E r xs (arr u) ∧ y.length = u.length ∧
    match E.kind with
    | .regression => (activated u y).length ≠ 1
    | .classification => PlainClasses E.floatStr (activated u y)

/-- A ruleset of which stacked and plain fit can agree: its rules are of class `k`, can be fitted and be compared, their conditions
have different texts, and its stacked activations, if they are used, are those of its rules. -/
structure CanAgree (R : RsEnv) (k : Kind) (y : List Label) (xs : Option Xs) (s : RuleSet) : Prop where
  type : s.ruleType = some k
  kinds : ∀ m ∈ s.rules, m.kind = k
  runs : ∀ m ∈ s.rules, Rule.Runs m.rule xs
  comparable : ∀ m ∈ s.rules, Comparable (R.ofKind k) y xs m.rule
  texts : DifferentTexts R s.rules
  stacked : xs = none → s.stacked = none ∨ s.stacked = some (columnsOf R s.rules)
  extra : SeesPrediction (R.ofKind k)

/-- The same member after a fit -/
def SameMember (R : RsEnv) (m m' : Member) : Prop := m'.kind = m.kind ∧ SameFit (R.ofKind m.kind) m.rule m'.rule

/-! ## eval -/

/-- What the stacked and the plain eval of a rule can agree on: its activation `u` is known for every target, a rule predicting numbers
has a feature, and no class to be predicted is missing, empty or "zero". -/
def EvalComparable (E : Env) (y : List Label) (xs : Option Xs) (r : Rule) : Prop :=
  ∃ u : List Bool, Rule.Uses E r xs (arr u) ∧ y.length = u.length ∧
    match E.kind with
    | .regression => r.length ≠ 0
    | .classification => ∀ c ∈ activated u y, (∃ x : Num, c = .num x ∧ x ≠ .nan) ∨ ∃ s, c = .text s ∧ s ≠ "" ∧ s ≠ "zero"

/-- The same rule after an eval of `r`: same condition and verdict, for the same reason if it was good before, and the same rule
altogether (activation, figures, marks) if it is good.  `log` is not in the code: see `Rule`. -/
structure SameEval (r r1 r2 : Rule) : Prop where
  cond : r2.cond = r1.cond
  good : r2.good = r1.good
  bad : r.good = true → r2.badBecause = r1.badBecause
  same : r1.good = true → r1.evaluated = true ∧ r2 = { r1 with log := r2.log }

/-- A ruleset of which stacked and plain eval can agree: see `CanAgree`. -/
structure CanEval (R : RsEnv) (k : Kind) (y : List Label) (xs : Option Xs) (s : RuleSet) : Prop where
  type : s.ruleType = some k
  kinds : ∀ m ∈ s.rules, m.kind = k
  points : ∀ x, xs = some x → x.length ≠ 0
  comparable : ∀ m ∈ s.rules, EvalComparable (R.ofKind k) y xs m.rule
  texts : DifferentTexts R s.rules
  stacked : xs = none → s.stacked = none ∨ s.stacked = some (columnsOf R s.rules)
  extra : SeesPrediction (R.ofKind k)

/-- The same good rule of two rulesets after an eval, up to its activation -/
structure SameEvaluated (m m' : Member) : Prop where
  kind : m'.kind = m.kind
  good : m.rule.good = true ∧ m.rule.evaluated = true
  rule : m'.rule = { m.rule with act := m'.rule.act, log := m'.rule.log }

/-- The same rule.  `log` is not in the code: see `Rule`. -/
def SameRule (m m' : Member) : Prop := m'.kind = m.kind ∧ m'.rule = { m.rule with log := m'.rule.log }

/-- The activation of the ruleset is that of its rules, and not empty. -/
def ActivationKnown (s : RuleSet) : Prop :=
  ∃ n, n ≠ 0 ∧ (∀ m ∈ s.rules, HasPoints n m) ∧ s.act = some (vec n (coveredBy s.rules))

/-- Whether an activation is stored as an array does not depend on the record of checks, which is not in the code. -/
def RawSees (storedRaw : Rule → Bool) : Prop := ∀ r l, storedRaw { r with log := l } = storedRaw r

/-- The environment with `STACKED_FIT` set -/
def withStackedFit (R : RsEnv) (on : Bool) : RsEnv := { R with stackedFit := on }

end Verif.Spec
