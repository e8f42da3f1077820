import Verif.RuleSetOps

/-!
# Rulesets: fit, eval and predict

Model of `fit`, `eval`, `predict` and `calc_criterion` of `/repo/ruleskit/ruleset.py` when `STACKED_FIT` is `False` (the
default), except for `predict` which is modelled for both.
-/

namespace Verif

namespace RuleSet

open Vote (Columns Cell WeightsArg)
open Thresholds (Attr)

/-- Run the code of one rule of class `k` -/
def onRule (R : RsEnv) (f : Env → Py Rule Unit) (m : Member) : Except Err Unit × Member :=
  let p := f (R.ofKind m.kind) m.rule
  (p.1, { m with rule := p.2 })

/-- `[f(r) for r in self]`: one rule after the other, until one raises -/
def eachRule (R : RsEnv) (f : Env → Py Rule Unit) : List Member → Except Err Unit × List Member
  | [] => (.ok (), [])
  | m :: rest =>
    match onRule R f m with
    | (.error e, m') => (.error e, m' :: rest)
    | (.ok _, m') =>
      let p := eachRule R f rest
      (p.1, m' :: p.2)

/-- The same on a ruleset -/
def forRules (R : RsEnv) (f : Env → Py Rule Unit) : Py RuleSet Unit := fun s =>
  let p := eachRule R f s.rules
  (p.1, { s with rules := p.2 })

/-- `r in to_drop`: the same object, or `==`, which compares the hashes of the conditions -/
def isDropped (H : Cond.Hasher) (drops : List (Member × Nat)) (m : Member × Nat) : Except Err Bool :=
  match drops with
  | [] => .ok false
  | d :: rest =>
    if d.2 = m.2 then .ok true
    else do
      if ← Cond.eq H m.1.rule.cond d.1.rule.cond then .ok true else isDropped H rest m

/-- `[r for r in self.rules if r not in to_drop]`, lines 438, 642 -/
def keepRules (H : Cond.Hasher) (drops : List (Member × Nat)) : List (Member × Nat) → Except Err (List Member)
  | [] => .ok []
  | m :: rest => do
    let b ← isDropped H drops m
    let l ← keepRules H drops rest
    .ok (if b then l else m.1 :: l)

/-- `to_drop = [r for r in self if not r.good]` with positions, lines 435, 639 -/
def badRules (rules : List Member) : List (Member × Nat) := rules.zipIdx.filter fun p => !p.1.rule.good

/-- `if self._activation is not None: self._activation.clear()`, lines 440-441, 644-645 -/
def clearActivation (R : RsEnv) : Py RuleSet Unit := do
  let s ← Py.get
  match s.act with
  | none => pure ()
  | some v => do
    Py.ofExcept (R.clear v.length)
    Py.modify fun s => { s with act := some (v.map fun _ => 0) }

/-- Lines 437-444, 641-648: the rules which are not dropped, without any activation -/
def dropRules (R : RsEnv) (drops : List (Member × Nat)) : Py RuleSet Unit := do
  let s ← Py.get
  let kept ← Py.ofExcept (keepRules R.hasher drops s.rules.zipIdx)
  Py.modify fun s => { s with rules := [] }
  clearActivation R
  Py.modify fun s => { s with stacked := none }
  appendAll R kept

/-- `self._activation = None; self.compute_self_activation()` -/
def recomputeSelf (R : RsEnv) : Py RuleSet Unit := do
  Py.modify fun s => { s with act := none }
  computeSelf R none

/-- `self.stacked_activations = None; self.compute_stacked_activation()` -/
def recomputeStacked (R : RsEnv) : Py RuleSet Unit := do
  Py.modify fun s => { s with stacked := none }
  computeStacked R none

/-- `if condition(self): action` -/
def whenSet (cond : RuleSet → Bool) (action : Py RuleSet Unit) : Py RuleSet Unit := do
  let s ← Py.get
  if cond s then action else pure ()

/-- `self._activation is None or self._activation.length == 0` -/
def noActivation (s : RuleSet) : Bool :=
  match s.act with
  | none => true
  | some v => v.length = 0

/-- Lines 437-460: after the rules have been fitted; `given` is `xs is not None`. -/
def afterFit (R : RsEnv) (drops : List (Member × Nat)) (given : Bool) : Py RuleSet Unit :=
  if drops.length > 0 then do
    dropRules R drops
    recomputeSelf R
    whenSet (fun s => s.stack) (recomputeStacked R)
  else do
    whenSet (fun s => noActivation s || given) (recomputeSelf R)
    whenSet (fun s => s.stack && (s.stacked.isNone || given)) (recomputeStacked R)

/-- The type of the rules, lines 354-359: `rule_type` raises `ValueError` when it is not set. -/
def needType : Py RuleSet Kind := do
  let s ← Py.get
  match s.ruleType with
  | none => Py.throw .valueError
  | some k => pure k

/-- `calc_train_set_size`, lines 1408-1412 -/
def calcTrainSetSize (y : List Label) : Py RuleSet Unit := Py.modify fun s => { s with trainSize := .num (.fin y.length) }

/-- `calc_test_set_size`, lines 1402-1406 -/
def calcTestSetSize (y : List Label) : Py RuleSet Unit := Py.modify fun s => { s with testSize := .num (.fin y.length) }

/-- `fit`, `/repo/ruleskit/ruleset.py` lines 331-470, when `STACKED_FIT` is `False`; gives the rules which were dropped. -/
def fit (R : RsEnv) (y : List Label) (xs : Option Xs) (force : Bool) (kw : Rule.Kw) : Py RuleSet (List Member) := do
  let _ ← needType
  if kw.hasMethod then Py.throw .indexError
  else do
    let s ← Py.get
    if xs.any (fun x => x.length = 0) then pure []
    else if s.rules.length = 0 then pure []
    else if s.rules.all (fun m => m.rule.fitted) && xs.isNone then pure []
    else do
      forRules R fun E => Rule.fit E y xs force kw
      let s ← Py.get
      let drops := badRules s.rules
      afterFit R drops xs.isSome
      calcTrainSetSize y
      pure (drops.map (·.1))

/-! ## predict -/

/-- The environment in which the predictions of rules of class `k` are combined -/
def voteEnv (R : RsEnv) (k : Kind) : Vote.SetEnv := { R.toSetEnv with env := R.ofKind k }

/-- Rules with the classes they had -/
def putBack (members : List Member) (rules : List Rule) : List Member :=
  List.zipWith (fun m r => { m with rule := r }) members rules

/-- The weights given to `predict` -/
def weightsOf (R : RsEnv) (k : Kind) (rules : List Member) (w : Option WeightsArg) : Except Err (Option Vote.Weights) :=
  match w with
  | none => .ok none
  | some w => (Vote.weightsFrom (voteEnv R k) (rules.map (·.rule)) w).map some

/-- `_calc_prediction_unstacked` on a ruleset, lines 1322-1345 -/
def predictUnstacked (R : RsEnv) (k : Kind) (xs : Option Xs) (w : Option WeightsArg) : Py RuleSet (List Cell) := do
  let s ← Py.get
  let w ← Py.ofExcept (weightsOf R k s.rules w)
  let p := Vote.predictUnstacked (voteEnv R k) w xs (s.rules.map (·.rule))
  Py.modify fun s => { s with rules := putBack s.rules p.2 }
  let l ← Py.ofExcept p.1
  pure (l.map .label)

/-- The stacked activations used by `predict`, lines 1270-1274 -/
def stackFor (R : RsEnv) (xs : Option Xs) (s : RuleSet) (c : Columns Nat) : Except Err (Columns Nat) :=
  match xs with
  | none => .ok c
  | some x => (evaluateStacked R (some x) s.rules).map fun o => o.getD []

/-- `predict`, `/repo/ruleskit/ruleset.py` lines 1242-1279 -/
def predict (R : RsEnv) (xs : Option Xs) (w : Option WeightsArg) : Py RuleSet (List Cell) := do
  let s ← Py.get
  if s.rules.length = 0 then pure []
  else
    match s.ruleType with
    | none => pure []
    | some k =>
      match R.stackedFit, s.stacked with
      | true, some c => do
        let c ← Py.ofExcept (stackFor R xs s c)
        let w ← Py.ofExcept (weightsOf R k s.rules w)
        Py.ofExcept (Vote.predictStacked (voteEnv R k) (s.rules.map (·.rule)) c w)
      | _, _ => predictUnstacked R k xs w

/-! ## Criterion -/

/-- The predictions as labels.  Simplification: the empty DataFrame which can be among them raises `TypeError`. -/
def labelsOfCells (l : List Cell) : Except Err (List Label) :=
  l.mapM fun c => match c with
    | .label l => .ok l
    | .frame => .error .typeError

/-- The activation used by `calc_criterion` for classes, lines 1387-1392: `None` is refused by
`calc_classification_criterion` with `TypeError`. -/
def criterionActivation (R : RsEnv) (xs : Option Xs) : Py RuleSet (List Nat) := do
  match xs with
  | some x => do
    let s ← Py.get
    let a ← Py.ofExcept (evaluateSelf R (some x) s.rules)
    pure (a.getD [])
  | none => do
    whenSet noActivation (computeSelf R none)
    let s ← Py.get
    match s.available with
    | none => Py.throw .typeError
    | some v => pure v

/-- `calc_criterion`, `/repo/ruleskit/ruleset.py` lines 1347-1400.  Simplification: the empty Series which
`calc_classification_criterion` gives when no point is activated is `None` here. -/
def calcCriterion (R : RsEnv) (y : List Label) (xs : Option Xs) (w : Option WeightsArg) (kw : Rule.Kw) : Py RuleSet Unit := do
  let s ← Py.get
  if s.rules.length = 0 then pure ()
  else
    match s.ruleType with
    | none => pure ()
    | some k => do
      let p ← predict R xs w
      if p.length = 0 then Py.modify fun s => { s with criterion := .num .nan }
      else do
        let p ← Py.ofExcept (labelsOfCells p)
        match k with
        | .classification => do
          let a ← criterionActivation R xs
          let c ← Py.ofExcept (RFun.classificationCriterionVector (kw.criterionMethod.getD "success_rate") a p y)
          Py.modify fun s => { s with criterion := match c with | some c => .num c | none => .none }
        | .regression => do
          let p ← Py.ofExcept (Rule.numbers p)
          let ys ← Py.ofExcept (Rule.numbers y)
          let c ← Py.ofExcept (RFun.regressionCriterion (kw.criterionMethod.getD "mse_norm") p ys)
          Py.modify fun s => { s with criterion := .num c }

/-! ## eval -/

/-- Lines 641-667: after the rules have been evaluated; `given` is `xs is not None and keep_new_activations`.  Contrary to `fit`,
the activation which has been cleared is not always computed again. -/
def afterEval (R : RsEnv) (drops : List (Member × Nat)) (given : Bool) : Py RuleSet Unit :=
  if drops.length > 0 then do
    dropRules R drops
    whenSet (fun s => noActivation s || given) (recomputeSelf R)
    whenSet (fun s => s.stack && (s.stacked.isNone || given)) (recomputeStacked R)
  else do
    whenSet (fun s => noActivation s || given) (recomputeSelf R)
    whenSet (fun s => s.stack && (s.act.isNone || given)) (recomputeStacked R)

/-- `eval`, `/repo/ruleskit/ruleset.py` lines 473-678, when `STACKED_FIT` is `False` -/
def eval (R : RsEnv) (y : List Label) (xs : Option Xs) (keep : Bool) (w : Option WeightsArg) (force : Bool) (kw : Rule.Kw) :
    Py RuleSet (List Member) := do
  let _ ← needType
  if kw.hasMethod then Py.throw .indexError
  else do
    let s ← Py.get
    if xs.any (fun x => x.length = 0) then pure []
    else if s.rules.length = 0 then pure []
    else if !(s.rules.all fun m => m.rule.fitted) && xs.isNone then Py.throw .valueError
    else do
      let keep := keep || !(s.rules.all fun m => m.rule.fitted)
      forRules R fun E => Rule.eval E y xs keep force kw
      let s ← Py.get
      let drops := badRules s.rules
      afterEval R drops (xs.isSome && keep)
      calcCriterion R y (if keep then none else xs) w kw
      calcTestSetSize y
      pure (drops.map (·.1))

end RuleSet

end Verif
