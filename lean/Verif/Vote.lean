import Verif.Rule

/-!
# Predictions of rulesets

Model of the second part of `/repo/ruleskit/utils/rfunctions.py` (lines 410-619): how the predictions of several rules are
combined.

Simplifications.
* A Series of weights is a function from rule names to numbers, `none` where it has no such entry.
* The name of a rule is `str(rule.condition)`; the text itself is not modelled, only that it depends on the condition alone.
* The rules of a list are different objects.
* pandas operations between a Series and an array of different lengths raise `ValueError`; that pandas accepts arrays of one
  element is not modelled.
-/

namespace Verif.Vote

open Verif

/-- What the code of rulesets depends on besides rules. -/
structure SetEnv where
  env : Env
  /-- `str(condition)` -/
  condStr : Cond → String
  /-- the activation of this rule is stored as an array of bytes, so that `raw` gives the stored array itself
  (`/repo/ruleskit/activation.py` lines 1231-1233) -/
  storedRaw : Rule → Bool

/-- Weights by rule name -/
abbrev Weights := String → Option Num

/-- The weight of a rule, `none` for a rule which is ignored: no weight, a null or a NaN weight,
`/repo/ruleskit/utils/rfunctions.py` lines 445-453, 546-554 -/
def weightOf (w : Weights) (name : String) : Option Num :=
  match w name with
  | none => none
  | some x => if x.beq (.fin 0) then none else if x.isNaN then none else some x

/-- `rule.activation` or `rule.evaluate_activation(xs).raw`, lines 454-457, 496-499, 555-561 -/
def activationOf (E : Env) (xs : Option Xs) (r : Rule) : Except Err (Option (List Nat)) :=
  match xs with
  | none => .ok r.activation
  | some xs => (r.evaluateActivation E xs).map some

/-- An element-wise operation -/
def zipOp (f : Num → Num → Num) (x y : List Num) : Except Err (List Num) :=
  if x.length = y.length then .ok (List.zipWith f x y) else .error .valueError

/-- `activation * x` -/
def scale (v : List Nat) (x : Num) : List Num := v.map fun a : Nat => Num.mul (.fin a) x

/-- `rule.prediction` in a product: text or `None` raise `TypeError`. -/
def numberOf : Option Label → Except Err Num
  | some (.num x) => .ok x
  | _ => .error .typeError

/-- `rule.calc_prediction_vector(activation=activation)` of a rule which predicts numbers -/
def firstVector (E : Env) (r : Rule) (v : List Nat) : Except Err (List Num) := do
  let p ← r.calcPredictionVector E (some v)
  Rule.numbers (p.getD [])

/-- `cum_pred.replace(0, "zero").replace(np.nan, 0) + term`, then `.replace(0, np.nan).replace("zero", 0)`, lines 466-470,
508-512: adding a number to the text "zero" raises `TypeError`. -/
def accumulate (cum term : List Num) : Except Err (List Num) :=
  if cum.any fun c => c.beq (.fin 0) then .error .typeError
  else do
    let s ← zipOp Num.add (cum.map fun c => if c.isNaN then .fin 0 else c) term
    .ok (s.map fun x => if x.beq (.fin 0) then .nan else x)

/-- One turn of the loop of lines 443-471: `acc` is `(cum_pred, cum_w)` or `None`. -/
def weightedStep (S : SetEnv) (w : Weights) (xs : Option Xs) (acc : Option (List Num × List Num)) (r : Rule) :
    Except Err (Option (List Num × List Num)) :=
  match weightOf w (S.condStr r.cond) with
  | none => .ok acc
  | some x => do
    match ← activationOf S.env xs r with
    | none => .ok acc
    | some v =>
      if v.length = 0 then .ok acc
      else
        match acc with
        | none => do
          let p ← firstVector S.env r v
          .ok (some (p.map fun q => Num.mul q x, scale v x))
        | some (cum, cumW) => do
          let p ← r.getPrediction S.env
          let p ← numberOf p
          let cum ← accumulate cum ((scale v p).map fun q => Num.mul q x)
          let cumW ← zipOp Num.add cumW (scale v x)
          .ok (some (cum, cumW))

/-- `calc_ruleset_prediction_weighted_regressor_unstacked`, `/repo/ruleskit/utils/rfunctions.py` lines 433-475 -/
def weightedRegressor (S : SetEnv) (rules : List Rule) (w : Weights) (xs : Option Xs) : Except Err (List Num) :=
  if rules.length = 0 then .ok []
  else do
    match ← rules.foldlM (weightedStep S w xs) none with
    | none => .error .valueError
    | some (cum, cumW) => zipOp Num.div cum cumW

/-- `cum_w += activation` on bytes -/
def addBytes (x y : List Nat) : Except Err (List Nat) :=
  if x.length = y.length then .ok (List.zipWith (fun a b => (a + b) % 256) x y) else .error .valueError

/-- The number of the rule whose stored activation is the array `cum_w`, if there is one: `activation` is stored as an array
and is not computed from features. -/
def aliased (S : SetEnv) (xs : Option Xs) (i : Nat) (r : Rule) : Option Nat :=
  if xs.isNone && S.storedRaw r then some i else none

/-- `+=` writes into `cum_w`, hence into the rule whose stored activation it is. -/
def writeBack (k : Option Nat) (cumW : List Nat) (rules : List Rule) : List Rule :=
  match k with
  | none => rules
  | some i => rules.modify i fun r => { r with act := some cumW }

/-- One turn of the loop of lines 494-513: `acc` is `None` or the rule into which `cum_w` is written, `cum_pred` and `cum_w`.
The state is the list of rules. -/
def equalStep (S : SetEnv) (xs : Option Xs) (i : Nat) (r : Rule) (acc : Option (Option Nat × List Num × List Nat)) :
    Py (List Rule) (Option (Option Nat × List Num × List Nat)) := do
  match ← Py.ofExcept (activationOf S.env xs r) with
  | none => pure acc
  | some v =>
    if v.length = 0 then pure acc
    else
      match acc with
      | none => do
        let p ← Py.ofExcept (firstVector S.env r v)
        pure (some (aliased S xs i r, p, v))
      | some (k, cum, cumW) => do
        let p ← Py.ofExcept (r.getPrediction S.env)
        let p ← Py.ofExcept (numberOf p)
        let cum ← Py.ofExcept (accumulate cum (scale v p))
        let cumW ← Py.ofExcept (addBytes cumW v)
        Py.modify (writeBack k cumW)
        pure (some (k, cum, cumW))

/-- The loop; `i` is the number of the first rule of the list. -/
def equalLoop (S : SetEnv) (xs : Option Xs) : Nat → List Rule → Option (Option Nat × List Num × List Nat) →
    Py (List Rule) (Option (Option Nat × List Num × List Nat))
  | _, [], acc => pure acc
  | i, r :: rest, acc => do
    let acc ← equalStep S xs i r acc
    equalLoop S xs (i + 1) rest acc

/-- `calc_ruleset_prediction_equally_weighted_regressor_unstacked`, `/repo/ruleskit/utils/rfunctions.py` lines 487-517.  The
state is the list of rules, because the first one can be changed. -/
def equalRegressor (S : SetEnv) (xs : Option Xs) : Py (List Rule) (List Num) := do
  let rules ← Py.get
  if rules.length = 0 then pure []
  else do
    match ← equalLoop S xs 0 rules none with
    | none => Py.throw .valueError
    | some (_, cum, cumW) => Py.ofExcept (zipOp Num.div cum (cumW.map fun a : Nat => .fin a))

/-! ## Classes -/

/-- The table `preds` of lines 541-573: total weight by class (rows) and point. -/
abbrev Table := List (Label × List Num)

/-- `preds.loc[p] = v` or `preds.loc[p] += v`, lines 568-573 -/
def addRow (t : Table) (p : Label) (v : List Num) : Except Err Table :=
  match t with
  | [] => .ok [(p, v)]
  | (q, u) :: rest =>
    if u.length ≠ v.length then .error .valueError
    else if q.eq p then .ok ((q, List.zipWith Num.add u v) :: rest)
    else (addRow rest p v).map ((q, u) :: ·)

/-- One turn of the loop of lines 543-573.  Simplification: a rule whose prediction is `None` raises `TypeError` here, in the
code possibly later. -/
def classStep (S : SetEnv) (w : Weights) (xs : Option Xs) (t : Table) (r : Rule) : Except Err Table :=
  match weightOf w (S.condStr r.cond) with
  | none => .ok t
  | some x => do
    match ← activationOf S.env xs r with
    | none => .ok t
    | some v =>
      if Rule.nones v = 0 then .ok t
      else do
        match ← r.getPrediction S.env with
        | none => .error .typeError
        | some p => addRow t p (scale v x)

/-- `max()` of pandas: NaN is skipped, NaN if nothing else. -/
def nanmax (l : List Num) : Num :=
  match Num.dropna l with
  | [] => .nan
  | x :: rest => rest.foldl Num.max x

/-- Lines 578-584 for one point: the class with the greatest total if it is not zero and no other class has the same total;
a point with a NaN total is dropped. -/
def decideClass (column : List (Label × Num)) : Label :=
  let m := nanmax (column.map (·.2))
  if m.beq (.fin 0) then .num .nan
  else if column.any fun p => p.2.isNaN then .num .nan
  else
    match column.filter fun p => p.2.beq m with
    | [p] => p.1
    | _ => .num .nan

/-- The columns of the table -/
def columns (t : Table) : List (List (Label × Num)) :=
  match t with
  | [] => []
  | (_, v) :: _ => (List.range v.length).map fun i => t.map fun p => (p.1, (p.2[i]?).getD .nan)

/-- `calc_ruleset_prediction_weighted_classificator_unstacked`, `/repo/ruleskit/utils/rfunctions.py` lines 525-584 -/
def weightedClassifier (S : SetEnv) (rules : List Rule) (w : Weights) (xs : Option Xs) : Except Err (List Label) :=
  if rules.length = 0 then .ok []
  else do
    let t ← rules.foldlM (classStep S w xs) []
    if t.length = 0 then .error .valueError
    else .ok ((columns t).map decideClass)

/-- `calc_ruleset_prediction_equally_weighted_classificator_unstacked`, lines 588-594: every rule has the weight 1. -/
def equalClassifier (S : SetEnv) (rules : List Rule) (xs : Option Xs) : Except Err (List Label) :=
  weightedClassifier S rules (fun n => if rules.any (fun r => decide (S.condStr r.cond = n)) then some (.fin 1) else none) xs

/-! ## Stacked computations

A DataFrame with one column per rule is a list of named columns. -/

/-- A DataFrame of one column per rule -/
abbrev Columns (α : Type) := List (String × List α)

/-- A Python dictionary made from pairs: the last value of a key wins, at the place of its first occurrence. -/
def dictOf {α} (l : List (String × α)) : List (String × α) :=
  l.foldl (fun acc p =>
    if acc.any (fun q => q.1 = p.1) then acc.map (fun q => if q.1 = p.1 then p else q) else acc ++ [p]) []

/-- `d[key]` -/
def lookup {α} (d : List (String × α)) (key : String) : Option α := (d.find? fun q => q.1 = key).map (·.2)

/-- The rows of a DataFrame of `n` rows -/
def rowsOf {α} (n : Nat) (c : Columns α) : List (List α) :=
  (List.range n).map fun i => c.filterMap fun p => p.2[i]?

/-- The weight of a rule at a point where its activation is `a`: `stacked_activations.replace(0, np.nan) * weights`
(`/repo/ruleskit/ruleset.py` line 1301), then `weights.replace(0, np.nan)` (`rfunctions.py` line 413) -/
def cellWeight (w : Weights) (name : String) (a : Nat) : Num :=
  match w name with
  | none => .nan
  | some x => if a = 0 then .nan else if (Num.mul (.fin a) x).beq (.fin 0) then .nan else Num.mul (.fin a) x

/-- A column with its weights, dropped if it has none: `dropna(axis=1, how="all")` (line 413); no weight where the rule does
not predict (line 424) -/
def weighColumn {α} (isNaN : α → Bool) (preds : Columns α) (w : Weights) (c : String × List Nat) :
    Option (String × List (α × Num)) :=
  match lookup preds c.1 with
  | none => none
  | some p =>
    if (c.2.map (cellWeight w c.1)).all Num.isNaN then none
    else some (c.1, List.zipWith (fun q x => (q, if isNaN q then Num.nan else x)) p (c.2.map (cellWeight w c.1)))

/-- `init_weights_stacked`, `/repo/ruleskit/utils/rfunctions.py` lines 410-429: the columns which have a weight somewhere,
their prediction at each point and their weight there, NaN where the rule does not predict. -/
def initWeights {α} (isNaN : α → Bool) (acts : Columns Nat) (preds : Columns α) (w : Weights) :
    Except Err (Columns (α × Num)) :=
  let cols := acts.filterMap (weighColumn isNaN preds w)
  if cols.length = 0 then .error .valueError else .ok cols

/-- `sum(axis=1)`: NaN is skipped. -/
def nansum (l : List Num) : Num := Num.sum (Num.dropna l)

/-- `calc_ruleset_prediction_weighted_regressor_stacked`, lines 478-483; `n` points -/
def weightedRegressorStacked (n : Nat) (acts : Columns Nat) (preds : Columns Num) (w : Weights) : Except Err (List Num) := do
  let cols ← initWeights Num.isNaN acts preds w
  .ok ((rowsOf n cols).map fun row =>
    Num.div (nansum (row.map fun p => Num.mul p.1 p.2)) (nansum (row.map (·.2))))

/-- `calc_ruleset_prediction_equally_weighted_regressor_stacked`, lines 520-521 -/
def equalRegressorStacked (n : Nat) (preds : Columns Num) : List Num := (rowsOf n preds).map Num.nanmean

/-- `mode` of one row: the values with the greatest number of occurrences, NaN excluded. -/
def modes (row : List Label) : List Label :=
  let count := RFun.counter (row.filter fun l => !l.isNaN)
  let m := count.foldl (fun m p => Nat.max m p.2) 0
  (count.filter fun p => p.2 = m).map (·.1)

/-- The mode of one row if there is only one -/
def winner (row : List Label) : Option Label :=
  match modes row with
  | [l] => some l
  | _ => none

/-- What the stacked class vote can put at a point: a class (or NaN), or, when no point is decided, the empty DataFrame left
by `squeeze`. -/
inductive Cell where
  | label (l : Label)
  | frame
  deriving DecidableEq, Repr

/-- `calc_ruleset_prediction_equally_weighted_classificator_stacked`, lines 607-619, from the rows: `squeeze` of a single
decided row gives its value without its index, which comes back as the first point; when no row is decided it gives a
DataFrame, which comes back as the first point. -/
def voteRows (rows : List (List Label)) : List Cell :=
  let decided := rows.map winner
  match decided.filterMap id with
  | [] => (List.range rows.length).map fun i => if i = 0 then .frame else .label (.num .nan)
  | [l] => (List.range rows.length).map fun i => if i = 0 then .label l else .label (.num .nan)
  | _ => decided.map fun d => .label (d.getD (.num .nan))

/-- The text "nan" is missing, when classes are texts: line 610 -/
def textNaN : Label → Label
  | .text s => if s = "nan" then .num .nan else .text s
  | l => l

/-- The first column holds texts: line 609.  A column of a rule which is active nowhere is a column of NaN. -/
def firstIsText (preds : Columns Label) : Bool :=
  match preds with
  | (_, col) :: _ => col.any fun l => match l with | .text _ => true | _ => false
  | [] => false

/-- `calc_ruleset_prediction_equally_weighted_classificator_stacked`, lines 607-619 -/
def equalClassifierStacked (n : Nat) (preds : Columns Label) : List Cell :=
  let rows := rowsOf n preds
  voteRows (if firstIsText preds then rows.map fun r => r.map textNaN else rows)

/-- `calc_ruleset_prediction_weighted_classificator_stacked`, lines 597-604: only the rules with the greatest weight at a
point keep their prediction there. -/
def weightedClassifierStacked (n : Nat) (acts : Columns Nat) (preds : Columns Label) (w : Weights) :
    Except Err (List Cell) := do
  let cols ← initWeights Label.isNaN acts preds w
  let best := (rowsOf n cols).map fun row => nanmax (row.map fun p => p.2)
  let masked := cols.map fun c =>
    (c.1, List.zipWith (fun (p : Label × Num) m => if p.2.beq m then p.1 else Label.num .nan) c.2 best)
  .ok (equalClassifierStacked n masked)

/-- The prediction of a rule at a point in `_calc_prediction_stacked`, `/repo/ruleskit/ruleset.py` lines 1291-1294, when it
predicts numbers -/
def cellNum (p : Num) (a : Nat) : Num := if a = 0 then .nan else Num.mul (.fin a) p

/-- The same when rules predict texts.  Simplification: numbers among texts are not modelled. -/
def cellText (l : Label) (a : Nat) : Label := if a = 0 then .num .nan else if a = 1 then l else .num (.fin a)

/-- The same for classes of either type -/
def cellLabel (l : Label) (a : Nat) : Label :=
  match l with
  | .num p => .num (cellNum p a)
  | .text s => cellText (.text s) a

/-- `prediction_vectors`, `/repo/ruleskit/ruleset.py` lines 1284-1294: every column of the stacked activations with the
prediction found under its name; without one, the column is missing everywhere (and is left out here). -/
def predictionVectors {α} (cell : α → Nat → α) (acts : Columns Nat) (preds : List (String × α)) : Columns α :=
  acts.filterMap fun c => (lookup preds c.1).map fun p => (c.1, c.2.map (cell p))

/-- `pd.DataFrame({name: array, ...})`: arrays of different lengths raise `ValueError`. -/
def frameOf {α} (l : List (String × List α)) : Except Err (Columns α) :=
  match dictOf l with
  | [] => .ok []
  | c :: rest => if rest.all (fun x => x.2.length = c.2.length) then .ok (c :: rest) else .error .valueError

/-- `evaluate_stacked_activations(xs)`, `/repo/ruleskit/ruleset.py` lines 797-801 -/
def stackedFrom (S : SetEnv) (xs : Xs) (rules : List Rule) : Except Err (Columns Nat) := do
  let l ← rules.mapM fun r => (r.evaluateActivation S.env xs).map fun v => (S.condStr r.cond, v)
  frameOf l

/-- `{str(r.condition): r.prediction for r in self}`, `/repo/ruleskit/ruleset.py` line 1284.  `None` becomes NaN in a
Series. -/
def labelsOf (S : SetEnv) (rules : List Rule) : Except Err (List (String × Label)) :=
  (rules.mapM fun r : Rule => (r.getPrediction S.env).map fun p => (S.condStr r.cond, p.getD (.num .nan))).map dictOf

/-- Predictions in a product: a text raises `TypeError`. -/
def onlyNumbers (l : List (String × Label)) : Except Err (List (String × Num)) :=
  l.mapM fun p => match p.2 with
    | .num x => .ok (p.1, x)
    | .text _ => .error .typeError

/-- All classes have one type. -/
def oneType (l : List (String × Label)) : Bool :=
  l.all (fun p => match p.2 with | .num _ => true | _ => false) || l.all (fun p => match p.2 with | .text _ => true | _ => false)

/-- Number of points of a DataFrame -/
def height {α} (c : Columns α) : Nat :=
  match c with
  | [] => 0
  | (_, v) :: _ => v.length

/-- Numbers as the result of a prediction -/
def cellsOf (l : List Num) : List Cell := l.map fun x => .label (.num x)

/-- `_calc_prediction_stacked`, `/repo/ruleskit/ruleset.py` lines 1281-1320, with stacked activations `acts`.  Simplifications:
classes of both types in one ruleset raise `TypeError`; an empty DataFrame is the empty list. -/
def predictStacked (S : SetEnv) (rules : List Rule) (acts : Columns Nat) (w : Option Weights) : Except Err (List Cell) := do
  let preds ← labelsOf S rules
  if height acts = 0 then .ok []
  else
    match S.env.kind with
    | .regression => do
      let p ← onlyNumbers preds
      match w with
      | some w => (weightedRegressorStacked (height acts) acts (predictionVectors cellNum acts p) w).map cellsOf
      | none => .ok (cellsOf (equalRegressorStacked (height acts) (predictionVectors cellNum acts p)))
    | .classification =>
      if !oneType preds then .error .typeError
      else
        match w with
        | some w => weightedClassifierStacked (height acts) acts (predictionVectors cellLabel acts preds) w
        | none => .ok (equalClassifierStacked (height acts) (predictionVectors cellLabel acts preds))

/-- `_calc_prediction_unstacked`, `/repo/ruleskit/ruleset.py` lines 1322-1345.  The state is the list of rules. -/
def predictUnstacked (S : SetEnv) (w : Option Weights) (xs : Option Xs) : Py (List Rule) (List Label) := do
  let rules ← Py.get
  match S.env.kind, w with
  | .regression, some w => do
    let l ← Py.ofExcept (weightedRegressor S rules w xs)
    pure (l.map .num)
  | .regression, none => do
    let l ← equalRegressor S xs
    pure (l.map .num)
  | .classification, some w => Py.ofExcept (weightedClassifier S rules w xs)
  | .classification, none => Py.ofExcept (equalClassifier S rules xs)

/-- The argument `weights` -/
inductive WeightsArg where
  | series (w : Weights)
  | attr (name : String)

/-- A weight read in an attribute.  Simplification: `None` becomes NaN, as in a Series with at least one number. -/
def weightAttr : Thresholds.Attr → Except Err Num
  | .num x => .ok x
  | .none => .ok .nan
  | _ => .error .typeError

/-- `pd.Series({str(r.condition): getattr(r, weights) for r in self})`, lines 1299-1300, 1329-1330 -/
def weightsFrom (S : SetEnv) (rules : List Rule) : WeightsArg → Except Err Weights
  | .series w => .ok w
  | .attr name => do
    let l ← rules.mapM fun r => do
      let a ← r.getattr S.env name
      let x ← weightAttr a
      pure (S.condStr r.cond, x)
    .ok fun n => lookup (dictOf l) n

end Verif.Vote
