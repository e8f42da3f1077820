import Verif.StackedFit

/-!
# Targets with an index

Model of what `/repo/ruleskit/ruleset.py` does with the index of targets which are a `pd.Series`, when `STACKED_FIT` is `True`, and of the
methods `calc_predictions` and `calc_stds` called by the user.  pandas aligns the rows of two objects with an index by their labels:
`fit` and `eval` write the index of the targets on the stacked activations before, and put a `pd.RangeIndex` back after.

Simplifications: those of `StackedFit`; labels of rows are integers.  Without `STACKED_FIT` the code only takes the values of the targets
(`np.extract`, and `y.values` in `calc_regression_criterion`, `/repo/ruleskit/utils/rfunctions.py` lines 272-273), as the model does.
-/

namespace Verif

/-- `pd.RangeIndex(n)` -/
def rangeIndex (n : Nat) : List Int := (List.range n).map Int.ofNat

/-- Targets: a `np.ndarray` (no index) or a `pd.Series` -/
structure Targets where
  values : List Label
  index : Option (List Int)

/-- The index of `pd.Series(y)` for an array, `/repo/ruleskit/utils/rfunctions.py` lines 51-52, 119-120, 395-396; that of a Series -/
def Targets.rows (y : Targets) : List Int := y.index.getD (rangeIndex y.values.length)

namespace RFun

open Vote (Columns)

/-- The places of a label in an index -/
def places (a : List Int) (l : Int) : List Nat := (List.range a.length).filter fun i => a[i]? = some l

/-- The rows of two objects aligned by pandas with `join="outer"`, `/repo/ruleskit/utils/rfunctions.py` lines 58, 126, 402: the place of
the row in each of them.  Equal indexes are not looked at; labels which are repeated are combined in all ways. -/
def joinRows (a b : List Int) : List (Option Nat × Option Nat) :=
  ((a ++ b).dedup.insertionSort (· ≤ ·)).flatMap fun l =>
    match places a l, places b l with
    | [], q => q.map fun j => (none, some j)
    | p, [] => p.map fun i => (some i, none)
    | p, q => p.flatMap fun i => q.map fun j => (some i, some j)

/-- Whether the target is a text, or 0, for which "zero" is written -/
def isText : Label → Bool
  | .num x => x.beq (.fin 0)
  | .text _ => true

/-- A column of `y_conditional`, see `conditionalColumn`, for activations with this index.  Rows which are only on one side are NaN; the
activations are floats then, and multiplying a text by a float raises `TypeError`. -/
def conditionalColumnAt (rows : List Int) (act : List Nat) (y : Targets) : Except Err (List Label) :=
  if rows = y.rows then .ok (conditionalColumn act y.values)
  else
    let cells := (joinRows rows y.rows).map fun p => (p.1.bind fun i => act[i]?, p.2.bind fun j => y.values[j]?)
    if cells.any (fun c => c.1.isNone || c.2.isNone) && cells.any (fun c => c.1.isSome && c.2.any isText) then .error .typeError
    else .ok (cells.map fun c => match c with
      | (some a, some t) => conditionalCell a t
      | _ => .num .nan)

/-- `conditional_std` of a DataFrame, squares: see `conditionalVars` -/
def conditionalVarsAt (rows : List Int) (c : Columns Nat) (y : Targets) : Except Err (Series Num) :=
  c.mapM fun p => do
    let col ← conditionalColumnAt rows p.2 y
    (Rule.numbers col).map fun l => (p.1, nanvar 1 l)

/-- The most frequent classes of a column of `y_conditional`: see `commonClasses` -/
def commonOf (col : List Label) : List Label :=
  let count := counter (col.filter fun l => !l.isNaN)
  let m := count.foldl (fun m p => Nat.max m p.2) 0
  (count.filter fun p => p.2 = m).map (·.1)

/-- The class of each column: see `conditionalClasses` -/
def conditionalClassesAt (rows : List Int) (c : Columns Nat) (y : Targets) : Except Err (Series Label) :=
  c.mapM fun p => do
    let col ← conditionalColumnAt rows p.2 y
    (firstClass (commonOf col)).map fun l => (p.1, l)

/-- The success rate of a column of `y_conditional`: see `columnSuccess` -/
def successOf (col : List Label) (prediction : Label) : Num :=
  Num.div (.fin ((col.filter fun t => t.eq prediction).length : Rat)) (.fin ((col.filter fun t => !t.isNaN).length : Rat))

/-- `calc_classification_criterion` of a DataFrame: see `classificationCriterions` -/
def classificationCriterionsAt (rows : List Int) (c : Columns Nat) (predictions : Series Label) (y : Targets) :
    Except Err (Series Num) :=
  if c.map (·.1) ≠ predictions.map (·.1) then .error .valueError
  else (c.zip predictions).mapM fun p => do
    let col ← conditionalColumnAt rows p.1.2 y
    .ok (p.1.1, successOf col p.2.2)

end RFun

namespace RuleSet

open Vote (Columns WeightsArg)
open RFun (Series)

/-- `computed_attrs` of `fit`: see `trainFigures`.  `calc_predictions` of regression rules and `calc_zscores` only take the values of the
targets, `/repo/ruleskit/utils/rfunctions.py` lines 88, 622-629. -/
def trainFiguresAt (R : RsEnv) (k : Kind) (rules : List Member) (rows : List Int) (c : Columns Nat) (y : Targets) (kw : Rule.Kw) :
    Except Err (List (String × Series Label)) := do
  let sizes ← seriesOf R (fun _ => .ok (Label.num (.fin y.values.length))) rules
  match k with
  | .classification => do
    let p ← RFun.conditionalClassesAt rows c y
    .ok [("train_set_size", sizes), ("prediction", p)]
  | .regression => do
    let ys ← Rule.numbers y.values
    let p ← RFun.conditionalMeans c ys
    let v ← RFun.conditionalVarsAt rows c y
    let n ← seriesOf R nonesOf rules
    .ok [("train_set_size", sizes), ("prediction", asLabels p), ("std", v.map fun q => (q.1, .num (R.env.sqrt q.2))),
      ("sign", signsOf p), ("zscore", asLabels (RFun.zscores R.env.sqrt p n ys kw.horizon))]

/-- `computed_attrs` of `eval`: see `testFigures`.  `calc_regression_criterion` takes `y.values`. -/
def testFiguresAt (R : RsEnv) (k : Kind) (rules : List Member) (rows : List Int) (c : Columns Nat) (y : Targets) (kw : Rule.Kw) :
    Except Err (List (String × Series Label)) := do
  let preds ← Vote.labelsOf (voteEnv R k) (rules.map (·.rule))
  match k with
  | .classification => do
    let l ← RFun.classificationCriterionsAt rows c preds y
    .ok [("criterion", asLabels l)]
  | .regression => do
    let p ← Vote.onlyNumbers preds
    let ys ← Rule.numbers y.values
    let l ← RFun.regressionCriterions (kw.criterionMethod.getD "mse_norm") (RFun.predictionColumns c p) ys
    .ok [("criterion", asLabels l)]

/-- A ruleset with the index of its stacked activations, if it has some -/
structure Framed where
  set : RuleSet
  rows : List Int

/-- A call on the ruleset -/
def onSet {α} (f : Py RuleSet α) : Py Framed α := fun p => ((f p.set).1, { p with set := (f p.set).2 })

/-- When new stacked activations have been made, or a `pd.RangeIndex` put on them -/
def newRows (yes : Bool) : Py Framed Unit :=
  Py.modify fun p => if yes then { p with rows := rangeIndex (Vote.height (p.set.stacked.getD [])) } else p

/-- `stacked_activations.index = y.index`, `/repo/ruleskit/ruleset.py` lines 401-402, 583-586, for a Series -/
def giveIndex (y : Targets) : Py Framed Unit := Py.modify fun p => { p with rows := y.index.getD p.rows }

/-- Lines 394-402 of `fit`: an index of another length raises `ValueError`. -/
def checkTrain (c : Option (Columns Nat)) (y : Targets) : Except Err (Columns Nat) :=
  match checkRows c y.values with
  | .ok c => .ok c
  | .error e => .error (if e = .indexError ∧ y.index.isSome then .valueError else e)

/-- `fit` with `STACKED_FIT`, `/repo/ruleskit/ruleset.py` lines 331-470: see `fitStacked` -/
def fitAt (R : RsEnv) (y : Targets) (xs : Option Xs) (kw : Rule.Kw) : Py Framed (List Member) := do
  let k ← onSet needType
  if kw.hasMethod then Py.throw .indexError
  else do
    let p0 ← Py.get
    if xs.any (fun x => x.length = 0) then pure []
    else if p0.set.rules.length = 0 then pure []
    else if p0.set.rules.all (fun m => m.rule.fitted) && xs.isNone then pure []
    else do
      let clean ← onSet (prepareFit R xs)
      newRows (xs.isSome || p0.set.stacked.isNone)
      let p ← Py.get
      let c ← Py.ofExcept (checkTrain p.set.stacked y)
      giveIndex y
      let p ← Py.get
      let vals ← Py.ofExcept (trainFiguresAt R k p.set.rules p.rows c y kw)
      onSet (cleanIf clean)
      newRows true
      let ns ← onSet (receiveRules R (fun r => { r with fitted := true }) vals)
      let p ← Py.get
      let drops := dropList p.set.rules ns
      onSet (afterFitStacked R drops)
      newRows (drops.length > 0)
      onSet (calcTrainSetSize y.values)
      pure (drops.map (·.1))

/-- The stacked activations which `eval` uses are not those of the ruleset: lines 555-562 -/
def ownFrame (xs : Option Xs) (keep : Bool) : Bool := xs.isSome && !keep

/-- Lines 580-586 of `eval`: the index of the stacked activations used -/
def evalRows (own : Bool) (c : Columns Nat) (y : Targets) : Py Framed (List Int) :=
  if own then pure (y.index.getD (rangeIndex (Vote.height c)))
  else do
    giveIndex y
    let p ← Py.get
    pure p.rows

/-- `eval` with `STACKED_FIT`, `/repo/ruleskit/ruleset.py` lines 473-678: see `evalStacked` -/
def evalAt (R : RsEnv) (y : Targets) (xs : Option Xs) (keep : Bool) (w : Option WeightsArg) (kw : Rule.Kw) :
    Py Framed (List Member) := do
  let k ← onSet needType
  if kw.hasMethod then Py.throw .indexError
  else do
    let p0 ← Py.get
    if xs.any (fun x => x.length = 0) then pure []
    else if p0.set.rules.length = 0 then pure []
    else if !(p0.set.rules.all fun m => m.rule.fitted) && xs.isNone then Py.throw .valueError
    else do
      let keep := keep || !(p0.set.rules.all fun m => m.rule.fitted)
      let q ← onSet (prepareEval R xs keep)
      newRows (if xs.isSome then keep else p0.set.stacked.isNone)
      let p ← Py.get
      let c ← Py.ofExcept (checkRows q.1 y.values)
      let rows ← evalRows (ownFrame xs keep) c y
      let vals ← Py.ofExcept (testFiguresAt R k p.set.rules rows c y kw)
      onSet (cleanIf q.2)
      newRows (!ownFrame xs keep)
      let ns ← onSet (receiveRules R (fun r => { r with evaluated := true }) vals)
      let p ← Py.get
      let drops := dropList p.set.rules ns
      onSet (afterEvalStacked R drops (xs.isSome && keep))
      newRows (drops.length > 0)
      onSet (calcCriterion R y.values (if keep then none else xs) w kw)
      onSet (calcTestSetSize y.values)
      pure (drops.map (·.1))

/-- A call of `fit` or `eval` -/
inductive Call where
  | fit (y : Targets) (xs : Option Xs) (kw : Rule.Kw)
  | eval (y : Targets) (xs : Option Xs) (keep : Bool) (w : Option WeightsArg) (kw : Rule.Kw)

/-- The call on a ruleset with an index -/
def Call.at (R : RsEnv) : Call → Py Framed (List Member)
  | .fit y xs kw => fitAt R y xs kw
  | .eval y xs keep w kw => evalAt R y xs keep w kw

/-- The call with the values of the targets as an array -/
def Call.plain (R : RsEnv) : Call → Py RuleSet (List Member)
  | .fit y xs kw => fitStacked R y.values xs kw
  | .eval y xs keep w kw => evalStacked R y.values xs keep w kw

/-- `ruleset.calc_predictions(y)`, `/repo/ruleskit/ruleset.py` lines 1049-1100.  Without rules, or with an unknown class of rules:
`rule_type` raises `ValueError` -/
def calcPredictions (y : Targets) (p : Framed) : Except Err (Series Label) :=
  match p.set.stacked, p.set.ruleType with
  | none, _ => .error .valueError
  | some _, none => .error .valueError
  | some c, some .classification =>
    if p.set.rules.length = 0 then .ok [] else RFun.conditionalClassesAt p.rows c y
  | some c, some .regression =>
    if p.set.rules.length = 0 then .ok []
    else do
      let ys ← Rule.numbers y.values
      let l ← RFun.conditionalMeans c ys
      .ok (asLabels l)

/-- The squares of `ruleset.calc_stds(y)`, `/repo/ruleskit/ruleset.py` lines 1102-1144 -/
def calcStds (y : Targets) (p : Framed) : Except Err (Series Num) :=
  match p.set.ruleType, p.set.stacked with
  | none, _ => .error .valueError
  | some .classification, _ => .error .typeError
  | some .regression, none => .error .valueError
  | some .regression, some c =>
    if p.set.rules.length = 0 then .ok [] else RFun.conditionalVarsAt p.rows c y

end RuleSet

end Verif
