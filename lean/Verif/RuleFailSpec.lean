import Verif.Rule

/-!
# Vocabulary for C92
-/

namespace Verif.Spec

open Verif

/-- What a fit of a rule must not touch before it has gone through: the condition, the flags, and what comes from the test set. -/
structure FitKept (r r' : Rule) : Prop where
  cond : r'.cond = r.cond
  fitted : r'.fitted = r.fitted
  evaluated : r'.evaluated = r.evaluated
  criterion : r'.criterion = r.criterion
  testSize : r'.testSize = r.testSize

/-- What an evaluation of a rule must not touch before it has gone through: the condition, the flags, and what comes from the train set. -/
structure EvalKept (r r' : Rule) : Prop where
  cond : r'.cond = r.cond
  fitted : r'.fitted = r.fitted
  evaluated : r'.evaluated = r.evaluated
  prediction : r'.prediction = r.prediction
  std : r'.std = r.std
  sign : r'.sign = r.sign
  zscore : r'.zscore = r.zscore
  trainSize : r'.trainSize = r.trainSize

end Verif.Spec
