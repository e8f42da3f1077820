import Verif.RuleSetFit

/-!
# Stacked fit and eval

Model of the branches of `fit` and `eval` of `/repo/ruleskit/ruleset.py` taken when `STACKED_FIT` is `True`, and of the functions
of `/repo/ruleskit/utils/rfunctions.py` when they are given a DataFrame of activations.

Simplifications.
* The targets are an array (with a Series of another length the error is not `IndexError` but `ValueError`).
* Square roots are not modelled: see `RFunctions`.
* Texts and numbers together in a column of targets are sorted by `labelLe` where pandas may raise `TypeError`, unless they are
  among the most frequent classes.
-/

namespace Verif

namespace RFun

open Vote (Columns)

/-- `a * text` of Python -/
def timesText (a : Nat) (s : String) : String := (List.replicate a s).foldl (· ++ ·) ""

/-- A cell of `y_conditional`, `/repo/ruleskit/utils/rfunctions.py` lines 57-59, 125-127, 401-406: the target 0 is replaced by the
text "zero", the product with the activation is replaced by NaN if it is 0 or the empty text, and the text "zero" by 0. -/
def conditionalCell (a : Nat) (t : Label) : Label :=
  match (match t with | .num x => if x.beq (.fin 0) then Label.text "zero" else .num x | .text s => .text s) with
  | .num x => if (Num.mul (.fin a) x).beq (.fin 0) then .num .nan else .num (Num.mul (.fin a) x)
  | .text s =>
    if timesText a s = "" then .num .nan else if timesText a s = "zero" then .num (.fin 0) else .text (timesText a s)

/-- A column of `y_conditional`, same lines -/
def conditionalColumn (act : List Nat) (y : List Label) : List Label := List.zipWith conditionalCell act y

/-- A `pd.Series` whose index are the texts of the conditions -/
abbrev Series (α : Type) := List (String × α)

/-- `conditional_mean` of a DataFrame, `/repo/ruleskit/utils/rfunctions.py` line 88 -/
def conditionalMeans (c : Columns Nat) (y : List Num) : Except Err (Series Num) :=
  c.mapM fun p => (extract p.2 y).map fun l => (p.1, Num.nanmean l)

/-- The squares of `conditional_std` of a DataFrame, `/repo/ruleskit/utils/rfunctions.py` lines 113-128 -/
def conditionalVars (c : Columns Nat) (y : List Label) : Except Err (Series Num) :=
  c.mapM fun p => (Rule.numbers (conditionalColumn p.2 y)).map fun l => (p.1, nanvar 1 l)

/-- Classes with their number of occurrences, without NaN: `value_counts`, line 60 -/
def classCounts (act : List Nat) (y : List Label) : List (Label × Nat) :=
  counter ((conditionalColumn act y).filter fun l => !l.isNaN)

/-- The classes of a column whose frequency is the greatest: `class_probabilities` of a DataFrame,
`/repo/ruleskit/utils/rfunctions.py` lines 57-62 (frequencies are the counts divided by their sum, which does not change their
order), and `/repo/ruleskit/ruleset.py` lines 1092-1094 -/
def commonClasses (act : List Nat) (y : List Label) : List Label :=
  let count := classCounts act y
  let m := count.foldl (fun m p => Nat.max m p.2) 0
  (count.filter fun p => p.2 = m).map (·.1)

/-- Texts and numbers together -/
def mixed (l : List Label) : Bool :=
  l.any (fun x => match x with | .num _ => true | _ => false) && l.any (fun x => match x with | .text _ => true | _ => false)

/-- `x.dropna().sort_index().index[0]`, `/repo/ruleskit/ruleset.py` line 1095: `IndexError` when there is none. -/
def firstClass (l : List Label) : Except Err Label :=
  if mixed l then .error .typeError
  else
    match l.insertionSort fun a b => labelLe a b = true with
    | [] => .error .indexError
    | x :: _ => .ok x

/-- `conditional_std` and the like work column by column: the class of each column, `/repo/ruleskit/ruleset.py` lines 1091-1096 -/
def conditionalClasses (c : Columns Nat) (y : List Label) : Except Err (Series Label) :=
  c.mapM fun p => (firstClass (commonClasses p.2 y)).map fun l => (p.1, l)

/-- The index of the result of an operation on two Series: the common index, or the union in increasing order -/
def alignIndex (a b : List String) : List String :=
  if a = b then a else (a ++ b.filter fun x => x ∉ a).insertionSort fun x y => x ≤ y

/-- An operation on two Series of numbers -/
def alignOp {α} (f : Num → α → Num) (a : Series Num) (b : Series α) : Series Num :=
  (alignIndex (a.map (·.1)) (b.map (·.1))).map fun n =>
    (n, match Vote.lookup a n, Vote.lookup b n with
      | some x, some y => f x y
      | _, _ => .nan)

/-- `calc_zscore_external` of Series, `/repo/ruleskit/utils/rfunctions.py` lines 622-629 -/
def zscores (sqrt : Num → Num) (predictions : Series Num) (nones : Series Nat) (y : List Num) (horizon : Num) : Series Num :=
  alignOp (fun p (n : Nat) => Num.div (Num.abs (Num.sub p (Num.nanmean y)))
    (Num.mul (sqrt (Num.div horizon (.fin n))) (sqrt (nanvar 0 y)))) predictions nones

/-- `success_rate` of the columns of a DataFrame, `/repo/ruleskit/utils/rfunctions.py` lines 326-335, 383-407, for one column and the
prediction of its rule -/
def columnSuccess (act : List Nat) (prediction : Label) (y : List Label) : Num :=
  let col := conditionalColumn act y
  Num.div (.fin ((col.filter fun t => t.eq prediction).length : Rat)) (.fin ((col.filter fun t => !t.isNaN).length : Rat))

/-- `calc_classification_criterion` of a DataFrame, same lines; `criterion_method` is not looked at.  Comparing a DataFrame and a
Series which do not have the same labels raises `ValueError`. -/
def classificationCriterions (c : Columns Nat) (predictions : Series Label) (y : List Label) : Except Err (Series Num) :=
  if c.map (·.1) ≠ predictions.map (·.1) then .error .valueError
  else .ok (List.zipWith (fun p q => (p.1, columnSuccess p.2 q.2 y)) c predictions)

/-- `stacked_activations.replace(0, np.nan) * predictions`, `/repo/ruleskit/ruleset.py` line 1223 -/
def predictionColumns (c : Columns Nat) (predictions : Series Num) : Columns Num :=
  (alignIndex (c.map (·.1)) (predictions.map (·.1))).map fun n =>
    (n, match Vote.lookup c n, Vote.lookup predictions n with
      | some v, some p => v.map fun a : Nat => if a = 0 then .nan else Num.mul (.fin a) p
      | _, _ => List.replicate (Vote.height c) .nan)

/-- `calc_regression_criterion` of a DataFrame, `/repo/ruleskit/utils/rfunctions.py` lines 131-290: column by column -/
def regressionCriterions (method : String) (c : Columns Num) (y : List Num) : Except Err (Series Num) :=
  c.mapM fun p => (regressionCriterion method p.2 y).map fun x => (p.1, x)

end RFun

namespace RuleSet

open Vote (Columns WeightsArg)
open RFun (Series)

/-- `calc_activation`, `/repo/ruleskit/ruleset.py` lines 847-867 -/
def calcActivation (R : RsEnv) (xs : Xs) : Py RuleSet Unit := do
  let s ← Py.get
  if s.rules.length = 0 then Py.throw .valueError
  else if xs.length = 0 then pure ()
  else do
    forRules R fun E => Rule.calcActivation E (some xs)
    recomputeSelf R
    whenSet (fun s => s.stack) (recomputeStacked R)

/-- A call with `stack_activation` set to `True`, then to what it was: lines 384-387, 389-392, 547-550, 567-573.  Gives `clean_activation`.  When the
call raises, `stack_activation` stays `True`. -/
def whileStacking (f : Py RuleSet Unit) : Py RuleSet Bool := do
  let s ← Py.get
  Py.modify fun t => { t with stack := true }
  f
  Py.modify fun t => { t with stack := s.stack }
  pure (!s.stack)

/-- Lines 381-392 of `fit` -/
def prepareFit (R : RsEnv) (xs : Option Xs) : Py RuleSet Bool :=
  match xs with
  | some x => whileStacking (calcActivation R x)
  | none => do
    let s ← Py.get
    if s.stacked.isNone then whileStacking (computeStacked R none) else pure false

/-- `pd.Series({str(r.condition): f(r) for r in self})` -/
def seriesOf {α} (R : RsEnv) (f : Member → Except Err α) (rules : List Member) : Except Err (Series α) :=
  (rules.mapM fun m : Member => (f m).map fun x => (R.condStr m.rule.cond, x)).map Vote.dictOf

/-- `r.nones`: without activation, `AttributeError` -/
def nonesOf (m : Member) : Except Err Nat :=
  match m.rule.act with
  | some v => .ok (Rule.nones v)
  | none => .error .attributeError

/-- Numbers as labels -/
def asLabels (s : Series Num) : Series Label := s.map fun p => (p.1, .num p.2)

/-- `calc_signs`, lines 1146-1157 -/
def signsOf (s : Series Num) : Series Label := s.map fun p => (p.1, .text (if p.2.lt (.fin 0) then "-" else "+"))

/-- `computed_attrs` of `fit`, lines 404-411, in order: `calc_train_set_sizes`, `calc_predictions`, `calc_stds`, `calc_signs`,
`calc_zscores`, lines 1049-1175, 1228-1233 -/
def trainFigures (R : RsEnv) (k : Kind) (rules : List Member) (c : Columns Nat) (y : List Label) (kw : Rule.Kw) :
    Except Err (List (String × Series Label)) := do
  let sizes ← seriesOf R (fun _ => .ok (Label.num (.fin y.length))) rules
  match k with
  | .classification => do
    let p ← RFun.conditionalClasses c y
    .ok [("train_set_size", sizes), ("prediction", p)]
  | .regression => do
    let ys ← Rule.numbers y
    let p ← RFun.conditionalMeans c ys
    let v ← RFun.conditionalVars c y
    let n ← seriesOf R nonesOf rules
    .ok [("train_set_size", sizes), ("prediction", asLabels p), ("std", v.map fun q => (q.1, .num (R.env.sqrt q.2))),
      ("sign", signsOf p), ("zscore", asLabels (RFun.zscores R.env.sqrt p n ys kw.horizon))]

/-- `setattr(rule, f"_{attr}", value)` -/
def setFigure (attr : String) (l : Label) (r : Rule) : Rule :=
  if attr = "train_set_size" then { r with trainSize := Rule.ofLabel l }
  else if attr = "prediction" then { r with prediction := .label l }
  else if attr = "std" then { r with std := Rule.ofLabel l }
  else if attr = "sign" then { r with sign := Rule.ofLabel l }
  else if attr = "zscore" then { r with zscore := Rule.ofLabel l }
  else if attr = "criterion" then { r with criterion := Rule.ofLabel l }
  else r

/-- `series.iloc[i]` -/
def iloc (s : Series Label) (i : Nat) : Except Err Label :=
  match s[i]? with
  | some p => .ok p.2
  | none => .error .indexError

/-- The loop of lines 424-429, 624-629 for the rule at place `i`; gives the number of times the rule is put in `to_drop`. -/
def setFigures (E : Env) (i : Nat) : List (String × Series Label) → Py Rule Nat
  | [] => pure 0
  | (attr, s) :: rest => do
    let x ← Py.ofExcept (iloc s i)
    Py.modify (setFigure attr x)
    Rule.checkIfGood E attr
    let r ← Py.get
    let n ← setFigures E i rest
    pure (if r.good then n else n + 1)

/-- Lines 423-432, 623-631 for the rule at place `i` -/
def receive (E : Env) (mark : Rule → Rule) (i : Nat) (vals : List (String × Series Label)) : Py Rule Nat := do
  Py.modify mark
  let n ← setFigures E i vals
  Rule.checkAllIfGood E
  pure n

/-- The same for all rules, the first one being at place `i`: the new rules, and how many times each is put in `to_drop`. -/
def receiveAll (R : RsEnv) (mark : Rule → Rule) (vals : List (String × Series Label)) :
    Nat → List Member → Except Err (List Nat) × List Member
  | _, [] => (.ok [], [])
  | i, m :: rest =>
    match receive (R.ofKind m.kind) mark i vals m.rule with
    | (.error e, r) => (.error e, { m with rule := r } :: rest)
    | (.ok n, r) =>
      match receiveAll R mark vals (i + 1) rest with
      | (.error e, l) => (.error e, { m with rule := r } :: l)
      | (.ok ns, l) => (.ok (n :: ns), { m with rule := r } :: l)

/-- The same on a ruleset -/
def receiveRules (R : RsEnv) (mark : Rule → Rule) (vals : List (String × Series Label)) : Py RuleSet (List Nat) := fun s =>
  let p := receiveAll R mark vals 0 s.rules
  (p.1, { s with rules := p.2 })

/-- `to_drop`, with places: a rule as many times as it has been put there -/
def dropList (rules : List Member) (ns : List Nat) : List (Member × Nat) :=
  (List.zipWith (fun p n => List.replicate n p) rules.zipIdx ns).flatten

/-- Lines 437-454 of `fit`: nothing is computed again when no rule is dropped. -/
def afterFitStacked (R : RsEnv) (drops : List (Member × Nat)) : Py RuleSet Unit :=
  if drops.length > 0 then do
    dropRules R drops
    recomputeSelf R
    whenSet (fun s => s.stack) (recomputeStacked R)
  else pure ()

/-- `if clean_activation: self.del_stacked_activations()`, lines 414-415, 614-615 -/
def cleanIf (clean : Bool) : Py RuleSet Unit :=
  if clean then Py.modify fun s => { s with stacked := none } else pure ()

/-- `len(stacked_activations.index) == y.shape[0]`, lines 394-400, 580-582: without stacked activations, `AttributeError` -/
def checkRows (c : Option (Columns Nat)) (y : List Label) : Except Err (Columns Nat) :=
  match c with
  | none => .error .attributeError
  | some c => if Vote.height c = y.length then .ok c else .error .indexError

/-- `fit`, `/repo/ruleskit/ruleset.py` lines 331-470, when `STACKED_FIT` is `True`; gives the list of the dropped rules, which
contains a rule several times.  `force_if_not_good` is not looked at. -/
def fitStacked (R : RsEnv) (y : List Label) (xs : Option Xs) (kw : Rule.Kw) : Py RuleSet (List Member) := do
  let k ← needType
  if kw.hasMethod then Py.throw .indexError
  else do
    let s ← Py.get
    if xs.any (fun x => x.length = 0) then pure []
    else if s.rules.length = 0 then pure []
    else if s.rules.all (fun m => m.rule.fitted) && xs.isNone then pure []
    else do
      let clean ← prepareFit R xs
      let s ← Py.get
      let c ← Py.ofExcept (checkRows s.stacked y)
      let vals ← Py.ofExcept (trainFigures R k s.rules c y kw)
      cleanIf clean
      let ns ← receiveRules R (fun r => { r with fitted := true }) vals
      let s ← Py.get
      let drops := dropList s.rules ns
      afterFitStacked R drops
      calcTrainSetSize y
      pure (drops.map (·.1))

/-! ## eval -/

/-- `if self.stacked_activations is None: raise ValueError`, line 571 -/
def needStacked : Py RuleSet Unit := do
  let s ← Py.get
  if s.stacked.isNone then Py.throw .valueError else pure ()

/-- Lines 544-578 of `eval`: the stacked activations used and `clean_activation` -/
def prepareEval (R : RsEnv) (xs : Option Xs) (keep : Bool) : Py RuleSet (Option (Columns Nat) × Bool) :=
  match xs with
  | some x =>
    if keep then do
      let clean ← whileStacking (calcActivation R x)
      let s ← Py.get
      pure (s.stacked, clean)
    else do
      let s ← Py.get
      let c ← Py.ofExcept (evaluateStacked R (some x) s.rules)
      let _ ← Py.ofExcept (evaluateSelf R (some x) s.rules)
      pure (c, false)
  | none => do
    let s ← Py.get
    let clean ← if s.stacked.isNone then whileStacking (do
        computeStacked R none
        computeSelf R none
        needStacked)
      else pure false
    let s ← Py.get
    pure (s.stacked, clean)

/-- `computed_attrs` of `eval`, lines 588-610: `calc_criterions`, lines 1177-1226 -/
def testFigures (R : RsEnv) (k : Kind) (rules : List Member) (c : Columns Nat) (y : List Label) (kw : Rule.Kw) :
    Except Err (List (String × Series Label)) := do
  let preds ← Vote.labelsOf (voteEnv R k) (rules.map (·.rule))
  match k with
  | .classification => do
    let l ← RFun.classificationCriterions c preds y
    .ok [("criterion", asLabels l)]
  | .regression => do
    let p ← Vote.onlyNumbers preds
    let ys ← Rule.numbers y
    let l ← RFun.regressionCriterions (kw.criterionMethod.getD "mse_norm") (RFun.predictionColumns c p) ys
    .ok [("criterion", asLabels l)]

/-- Lines 641-661 of `eval` -/
def afterEvalStacked (R : RsEnv) (drops : List (Member × Nat)) (given : Bool) : Py RuleSet Unit :=
  if drops.length > 0 then do
    dropRules R drops
    whenSet (fun s => noActivation s || given) (recomputeSelf R)
    whenSet (fun s => s.stack && (s.stacked.isNone || given)) (recomputeStacked R)
  else pure ()

/-- `eval`, `/repo/ruleskit/ruleset.py` lines 473-678, when `STACKED_FIT` is `True` -/
def evalStacked (R : RsEnv) (y : List Label) (xs : Option Xs) (keep : Bool) (w : Option WeightsArg) (kw : Rule.Kw) :
    Py RuleSet (List Member) := do
  let k ← needType
  if kw.hasMethod then Py.throw .indexError
  else do
    let s ← Py.get
    if xs.any (fun x => x.length = 0) then pure []
    else if s.rules.length = 0 then pure []
    else if !(s.rules.all fun m => m.rule.fitted) && xs.isNone then Py.throw .valueError
    else do
      let keep := keep || !(s.rules.all fun m => m.rule.fitted)
      let p ← prepareEval R xs keep
      let s ← Py.get
      let c ← Py.ofExcept (checkRows p.1 y)
      let vals ← Py.ofExcept (testFigures R k s.rules c y kw)
      cleanIf p.2
      let ns ← receiveRules R (fun r => { r with evaluated := true }) vals
      let s ← Py.get
      let drops := dropList s.rules ns
      afterEvalStacked R drops (xs.isSome && keep)
      calcCriterion R y (if keep then none else xs) w kw
      calcTestSetSize y
      pure (drops.map (·.1))

end RuleSet

end Verif
