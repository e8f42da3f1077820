import Verif.RFunctions
import Verif.Thresholds

/-!
# Rules

Model of `/repo/ruleskit/rule.py`: `RegressionRule` and `ClassificationRule`.

Simplifications.
* The activation of a rule is its vector (`CodecProps` and `ActivationProps` show that an `Activation` behaves as one);
  activations whose data has been deleted are not modelled at this level.
* Every rule has a condition (`Rule()` without condition is not modelled).
* The timing attributes are not modelled.
* `COMPUTE_SUBATTRIBUTES` is `False` (the default).
-/

namespace Verif

/-- The two classes of rules. -/
inductive Kind where
  | regression
  | classification
  deriving DecidableEq, Repr

/-- `_prediction`: `None`, a value, or the array of (class, probability) of a classification rule. -/
inductive Pred where
  | none
  | label (l : Label)
  | probs (p : List (Label × Rat))
  deriving DecidableEq, Repr

/-- The features given to `fit`, `eval` and `predict`. -/
inductive Xs where
  | arr (m : Mat)
  | frame (f : Frame)

/-- `len(xs)` -/
def Xs.length : Xs → Nat
  | .arr m => m.rows.length
  | .frame f => f.rows.length

open Thresholds (Attr Limits Math)

/-- A rule, `/repo/ruleskit/rule.py` lines 72-110, 580-590. -/
structure Rule where
  cond : Cond
  act : Option (List Nat)
  /-- `_coverage` of the activation when it has been assigned by the setter of lines 184-188 -/
  actCoverage : Option Attr
  /-- `_coverage` of the rule -/
  coverage : Attr
  good : Bool
  badBecause : Option String
  prediction : Pred
  std : Attr
  sign : Attr
  zscore : Attr
  criterion : Attr
  trainSize : Attr
  testSize : Attr
  fitted : Bool
  evaluated : Bool
  /-- Not in the code: the answers of all threshold checks made so far, the last one first.  Written by `Rule.check` and
  `Rule.checkEach`, read by nothing. -/
  log : List Bool
  deriving DecidableEq

/-- What the code of rules depends on besides the rule. -/
structure Env where
  kind : Kind
  /-- class attribute `THRESHOLDS` -/
  thresholds : Option Limits
  /-- functions which `Thresholds` can apply -/
  math : Math
  /-- `np.sqrt` -/
  sqrt : Num → Num
  /-- how numpy writes probabilities in an array of texts -/
  floatStr : RFun.FloatStr
  /-- creating an `Activation` from this vector can raise -/
  store : List Nat → Except Err Unit
  /-- `dir(rule)`, without the names which begin with `__` -/
  names : List String
  /-- the attributes which are not modelled.  Simplification: they do not depend on the private flags `_fitted` and
  `_evaluated`, so that thresholds on these two are not modelled. -/
  extra : Rule → String → Except Err Attr

namespace Rule

/-- `activation`, `/repo/ruleskit/rule.py` lines 210-221: `None` also when the vector is empty, because an `Activation` of
length 0 is false. -/
def activation (r : Rule) : Option (List Nat) :=
  match r.act with
  | some v => if v.length = 0 then none else some v
  | none => none

/-- `len(rule)`, lines 313-315 -/
def length (r : Rule) : Nat := r.cond.length

/-- `_activation.nones`: number of 1 -/
def nones (v : List Nat) : Nat := (v.filter (· == 1)).length

/-- `coverage`, `/repo/ruleskit/rule.py` lines 177-182 and `/repo/ruleskit/activation.py` lines 1214-1221.  The value
remembered in `_coverage` of the rule is never read while there is an activation. -/
def getCoverage (r : Rule) : Except Err Attr :=
  match r.act with
  | none => .ok r.coverage
  | some v =>
    match r.actCoverage with
    | none | some .none =>
      if v.length = 0 then .error .zeroDivisionError
      else .ok (.num (.fin ((nones v : Rat) / v.length)))
    | some c => .ok c

/-- `prediction`, `/repo/ruleskit/rule.py` lines 223-225, 729-741: `none` is `None`. -/
def getPrediction (E : Env) (r : Rule) : Except Err (Option Label) :=
  match r.prediction with
  | .none => .ok none
  | .label l => .ok (some l)
  | .probs p => (RFun.bestClass E.floatStr p).map some

/-- A label as an attribute -/
def ofLabel : Label → Attr
  | .num x => .num x
  | .text s => .str s

/-- A boolean is an integer. -/
def ofBool (b : Bool) : Attr := .num (.fin (if b then 1 else 0))

/-- `getattr(rule, name)` -/
def getattr (E : Env) (r : Rule) (name : String) : Except Err Attr :=
  if name = "coverage" then r.getCoverage
  else if name = "prediction" then do
    match ← r.getPrediction E with
    | some l => .ok (ofLabel l)
    | none => .ok .none
  else if name = "std" then .ok r.std
  else if name = "sign" then .ok r.sign
  else if name = "zscore" then .ok r.zscore
  else if name = "criterion" then .ok r.criterion
  else if name = "train_set_size" then .ok r.trainSize
  else if name = "test_set_size" then .ok r.testSize
  else if name = "good" then .ok (ofBool r.good)
  else if name = "bad_because" then
    .ok (match r.badBecause with | some s => .str s | none => .none)
  else if name = "activation_available" then .ok (ofBool r.act.isSome)
  else E.extra { r with fitted := false, evaluated := false, log := [] } name

/-- The call `THRESHOLDS(attribute, rule)` -/
def accepts (E : Env) (t : Limits) (r : Rule) (name : String) : Except Err Bool :=
  (Thresholds.call E.math (r.getattr E) name t).1

/-- `if not THRESHOLDS(attribute, self): self._bad_because = attribute; self._good = False`, and the answer. -/
def checkOne (E : Env) (t : Limits) (name : String) : Py Rule Bool := do
  let r ← Py.get
  let b ← Py.ofExcept (r.accepts E t name)
  Py.modify fun r => { r with log := b :: r.log }
  if b then pure true
  else do
    Py.modify fun r => { r with badBecause := some name, good := false }
    pure false

/-- `check_thresholds(attribute)`, `/repo/ruleskit/rule.py` lines 131-138 -/
def check (E : Env) (name : String) : Py Rule Unit :=
  match E.thresholds with
  | none => pure ()
  | some t => do
    let _ ← checkOne E t name
    pure ()

/-- The loop of `check_thresholds()`, `/repo/ruleskit/rule.py` lines 140-146 -/
def checkEach (E : Env) (t : Limits) : List String → Py Rule Unit
  | [] => pure ()
  | a :: rest => do
    if ← checkOne E t a then checkEach E t rest else pure ()

/-- `check_thresholds()` -/
def checkAll (E : Env) : Py Rule Unit :=
  match E.thresholds with
  | none => pure ()
  | some t => checkEach E t E.names

/-- `__init__`, `/repo/ruleskit/rule.py` lines 72-110, 580-590 -/
def make (E : Env) (cond : Cond) (act : Option (List Nat)) : Except Err Unit × Rule :=
  let r : Rule :=
    { cond, act, actCoverage := none, coverage := .none, good := true, badBecause := none, prediction := .none,
      std := .none, sign := .none, zscore := .none, criterion := .none, trainSize := .none, testSize := .none,
      fitted := false, evaluated := false, log := [] }
  if act.isSome then check E "coverage" r else (.ok (), r)

/-- `_condition.evaluate(xs)` -/
def evaluate (c : Cond) : Xs → Except Err (List Nat)
  | .arr m => c.evaluate m
  | .frame f => c.evaluateFrame f

/-- `evaluate_activation`, `/repo/ruleskit/rule.py` lines 317-333 -/
def evaluateActivation (E : Env) (r : Rule) (xs : Xs) : Except Err (List Nat) := do
  let v ← evaluate r.cond xs
  E.store v
  .ok v

/-- `calc_activation`, `/repo/ruleskit/rule.py` lines 535-557 -/
def calcActivation (E : Env) : Option Xs → Py Rule Unit
  | none => do
    let r ← Py.get
    if r.act.isNone then Py.throw .valueError else pure ()
  | some xs => do
    if xs.length = 0 then pure ()
    else do
      let r ← Py.get
      let v ← Py.ofExcept (r.evaluateActivation E xs)
      Py.modify fun r => { r with act := some v, actCoverage := none }
      check E "coverage"

/-- The targets as numbers: text raises `TypeError`. -/
def numbers (y : List Label) : Except Err (List Num) :=
  y.mapM fun l => match l with
    | .num x => .ok x
    | .text _ => .error .typeError

/-- `calc_prediction_vector`, `/repo/ruleskit/rule.py` lines 470-485 -/
def calcPredictionVector (E : Env) (r : Rule) (activation : Option (List Nat)) : Except Err (Option (List Label)) :=
  match (match activation with | some v => some v | none => r.activation) with
  | none => .ok none
  | some v => do
    match ← r.getPrediction E with
    | none => .ok (some (v.map fun _ => .num .nan))
    | some p =>
      if r.length = 0 then .ok (some [])
      else
        match p with
        | .text s => .ok (some (v.map fun a : Nat => if a = 0 then .num .nan else if a = 1 then .text s else .num (.fin a)))
        | .num x => .ok (some (v.map fun a : Nat => .num (if a = 0 then .nan else Num.mul x (.fin a))))

/-- The first 32 characters: arrays of texts made from an array of floats have the type `<U32`. -/
def truncate (s : String) : String := String.ofList (s.toList.take 32)

/-- `predict`, `/repo/ruleskit/rule.py` lines 487-521.  Simplification: the result is a list; the difference between
arrays and Series, and `squeeze` of a Series of one element, are not modelled. -/
def predict (E : Env) (r : Rule) (xs : Option Xs) : Except Err (List Label) := do
  let act ← match xs with
    | some xs => r.evaluateActivation E xs
    | none =>
      match r.activation with
      | none => .error .valueError
      | some v => .ok v
  match ← r.getPrediction E with
  | none => .ok (act.map fun _ => .num .nan)
  | some (.text s) =>
    if s = "nan" then .error .valueError
    else .ok (act.map fun a : Nat => if a = 1 then .text (truncate s) else .text "nan")
  | some (.num x) => .ok (act.map fun a : Nat => .num (if a = 1 then x else .nan))

/-- Keyword arguments of `fit` and `eval` -/
structure Kw where
  /-- `"method" in kwargs` -/
  hasMethod : Bool := false
  horizon : Num := .fin 1
  criterionMethod : Option String := none

/-- `calc_train_set_size`, `/repo/ruleskit/rule.py` lines 559-563 -/
def calcTrainSetSize (y : List Label) : Py Rule Unit := Py.modify fun r => { r with trainSize := .num (.fin y.length) }

/-- `calc_test_set_size`, `/repo/ruleskit/rule.py` lines 565-569 -/
def calcTestSetSize (y : List Label) : Py Rule Unit := Py.modify fun r => { r with testSize := .num (.fin y.length) }

/-- `RegressionRule.calc_prediction`, `/repo/ruleskit/rule.py` lines 621-642; `ClassificationRule.calc_prediction`, lines
747-760 -/
def calcPrediction (E : Env) (y : List Label) : Py Rule Unit := do
  let r ← Py.get
  match E.kind with
  | .regression =>
    match r.act with
    | none => pure ()
    | some v => do
      let ys ← Py.ofExcept (numbers y)
      let m ← Py.ofExcept (RFun.conditionalMean v ys)
      Py.modify fun r => { r with prediction := .label (.num m) }
      check E "prediction"
  | .classification =>
    match r.activation with
    | none => Py.throw .valueError
    | some v => do
      let p ← Py.ofExcept (RFun.classProbabilities v y)
      Py.modify fun r => { r with prediction := .probs p }
      check E "prediction"

/-- `calc_sign`, `/repo/ruleskit/rule.py` lines 644-650.  A NaN prediction is not negative. -/
def calcSign : Py Rule Unit := do
  let r ← Py.get
  match r.prediction with
  | .none => pure ()
  | .label (.num x) => Py.modify fun r => { r with sign := .str (if x.lt (.fin 0) then "-" else "+") }
  | _ => Py.throw .typeError

/-- `calc_std`, `/repo/ruleskit/rule.py` lines 652-673 -/
def calcStd (E : Env) (y : List Label) : Py Rule Unit := do
  let r ← Py.get
  match r.act with
  | none => pure ()
  | some v => do
    let ys ← Py.ofExcept (numbers y)
    let m ← Py.ofExcept (RFun.conditionalVar v ys)
    Py.modify fun r => { r with std := .num (E.sqrt m) }
    check E "std"

/-- `calc_zscore_external`, `/repo/ruleskit/utils/rfunctions.py` lines 622-629 -/
def zscoreExternal (sqrt : Num → Num) (prediction : Num) (nones : Nat) (y : List Num) (horizon : Num) : Num :=
  if nones = 0 then .nan
  else
    Num.div (Num.abs (Num.sub prediction (Num.nanmean y)))
      (Num.mul (sqrt (Num.div horizon (.fin nones))) (sqrt (RFun.nanvar 0 y)))

/-- `calc_zscore`, `/repo/ruleskit/rule.py` lines 706-718 -/
def calcZscore (E : Env) (y : List Label) (horizon : Num) : Py Rule Unit := do
  let r ← Py.get
  match r.act with
  | none => pure ()
  | some v => do
    let ys ← Py.ofExcept (numbers y)
    let z ← Py.ofExcept (match r.prediction with
      | .label (.num x) => .ok (zscoreExternal E.sqrt x (nones v) ys horizon)
      | _ => if nones v = 0 then .ok .nan else .error .typeError)
    Py.modify fun r => { r with zscore := .num z }
    check E "zscore"

/-- `RegressionRule.calc_criterion`, `/repo/ruleskit/rule.py` lines 675-704; `ClassificationRule.calc_criterion`, lines
762-789; `activation` is the one given by `eval`. -/
def calcCriterion (E : Env) (y : List Label) (v : List Nat) (kw : Kw) : Py Rule Unit := do
  let r ← Py.get
  match E.kind with
  | .regression => do
    let p ← Py.ofExcept (r.calcPredictionVector E (some v))
    let p ← Py.ofExcept (numbers (p.getD []))
    let ys ← Py.ofExcept (numbers y)
    let c ← Py.ofExcept (RFun.regressionCriterion (kw.criterionMethod.getD "mse_norm") p ys)
    Py.modify fun r => { r with criterion := .num c }
    check E "criterion"
  | .classification => do
    match ← Py.ofExcept (r.getPrediction E) with
    | none => Py.throw .typeError
    | some p => do
      let c ← Py.ofExcept (RFun.classificationCriterion (kw.criterionMethod.getD "success_rate") v p y)
      Py.modify fun r => { r with criterion := .num c }
      check E "criterion"

/-- `attributes_from_train_set`, `/repo/ruleskit/rule.py` lines 57, 577, 726 -/
def trainAttrs : Kind → List String
  | .regression => ["train_set_size", "prediction", "std", "sign", "zscore"]
  | .classification => ["train_set_size", "prediction"]

/-- `attributes_from_test_set`, `/repo/ruleskit/rule.py` lines 578, 727 -/
def testAttrs : Kind → List String
  | .regression => ["criterion"]
  | .classification => ["criterion"]

/-- `setattr(self, f"_{attr}", np.nan)` -/
def setNaN (attr : String) (r : Rule) : Rule :=
  if attr = "train_set_size" then { r with trainSize := .num .nan }
  else if attr = "test_set_size" then { r with testSize := .num .nan }
  else if attr = "prediction" then { r with prediction := .label (.num .nan) }
  else if attr = "std" then { r with std := .num .nan }
  else if attr = "sign" then { r with sign := .num .nan }
  else if attr = "zscore" then { r with zscore := .num .nan }
  else if attr = "criterion" then { r with criterion := .num .nan }
  else r

/-- `launch_method(getattr(self, f"calc_{attr}"), ...)` of `fit` -/
def calcTrain (E : Env) (y : List Label) (kw : Kw) (attr : String) : Py Rule Unit :=
  if attr = "train_set_size" then calcTrainSetSize y
  else if attr = "prediction" then calcPrediction E y
  else if attr = "std" then calcStd E y
  else if attr = "sign" then calcSign
  else if attr = "zscore" then calcZscore E y kw.horizon
  else Py.throw .attributeError

/-- `launch_method(getattr(self, f"calc_{attr}"), ...)` of `eval` -/
def calcTest (E : Env) (y : List Label) (v : List Nat) (kw : Kw) (attr : String) : Py Rule Unit :=
  if attr = "criterion" then calcCriterion E y v kw
  else if attr = "test_set_size" then calcTestSetSize y
  else Py.throw .attributeError

/-- `if self.good: self.check_thresholds(attr)` -/
def checkIfGood (E : Env) (attr : String) : Py Rule Unit := do
  let r ← Py.get
  if r.good then check E attr else pure ()

/-- `if self.good: self.check_thresholds()` -/
def checkAllIfGood (E : Env) : Py Rule Unit := do
  let r ← Py.get
  if r.good then checkAll E else pure ()

/-- The loops over attributes of `fit` and `eval`, `/repo/ruleskit/rule.py` lines 373-380, 449-456 -/
def attrLoop (E : Env) (compute : String → Py Rule Unit) (force : Bool) : List String → Py Rule Unit
  | [] => pure ()
  | attr :: rest => do
    let r ← Py.get
    if !r.good && !force then do
      Py.modify (setNaN attr)
      attrLoop E compute force rest
    else do
      compute attr
      checkIfGood E attr
      attrLoop E compute force rest

/-- `fit`, `/repo/ruleskit/rule.py` lines 335-388 -/
def fit (E : Env) (y : List Label) (xs : Option Xs) (force : Bool) (kw : Kw) : Py Rule Unit := do
  if kw.hasMethod then Py.throw .indexError
  else do
    let r ← Py.get
    if r.fitted && xs.isNone then pure ()
    else if xs.any (fun x => x.length = 0) then pure ()
    else do
      calcActivation E xs
      attrLoop E (calcTrain E y kw) force (trainAttrs E.kind)
      checkAllIfGood E
      Py.modify fun r => { r with fitted := true }

/-- `if recompute_activation: self.calc_activation(xs=xs)`, line 434 -/
def recomputeIf (E : Env) (xs : Option Xs) (recompute : Bool) : Py Rule Unit :=
  if recompute then calcActivation E xs else pure ()

/-- The activation used by `eval`, `/repo/ruleskit/rule.py` lines 434-447: `recompute` replaces the one of the rule;
features without `recompute` give a temporary one. -/
def evalActivation (E : Env) (xs : Option Xs) (recompute : Bool) : Py Rule (List Nat) := do
  recomputeIf E xs recompute
  let r ← Py.get
  match r.act with
  | none => Py.throw .valueError
  | some own =>
    match xs with
    | some xs => if recompute then pure own else Py.ofExcept (r.evaluateActivation E xs)
    | none => pure own

/-- `eval`, `/repo/ruleskit/rule.py` lines 390-462 -/
def eval (E : Env) (y : List Label) (xs : Option Xs) (recompute force : Bool) (kw : Kw) : Py Rule Unit := do
  if kw.hasMethod then Py.throw .indexError
  else do
    let r ← Py.get
    if !r.good && !force then
      Py.modify fun r => (testAttrs E.kind).foldl (fun r a => setNaN a r) { r with fitted := true }
    else if xs.any (fun x => x.length = 0) then pure ()
    else do
      let v ← evalActivation E xs recompute
      attrLoop E (calcTest E y v kw) force (testAttrs E.kind)
      checkAllIfGood E
      Py.modify fun r => { r with evaluated := true }

/-- `coverage` setter, `/repo/ruleskit/rule.py` lines 184-188 -/
def setCoverage (value : Attr) : Py Rule Unit :=
  Py.modify fun r => { r with actCoverage := some value, coverage := value }

end Rule

end Verif
