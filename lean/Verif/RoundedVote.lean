import Verif.Rounded
import Verif.Vote

/-!
# Predictions of rulesets computed with rounding

Model of the second part of `/repo/ruleskit/utils/rfunctions.py` with every operation rounded.  A rule is what it contributes:
its activation vector (stored or evaluated), its prediction and its weight.  Rules are assumed to have different names.
Overflow, underflow and infinite values are not modelled.
-/

namespace Verif.Rounded

open Verif

/-- A rule in a vote -/
structure Voter (α : Type) where
  /-- the activation vector -/
  act : List Nat
  /-- the prediction -/
  pred : α
  /-- the weight, `none` when it has none or NaN -/
  weight : Option Rat

variable (A : Machine)

/-- The weight of a rule, `none` for a rule which is ignored, `/repo/ruleskit/utils/rfunctions.py` lines 445-453, 546-554 -/
def weightOf (w : Option Rat) : Option Rat :=
  match w with
  | none => none
  | some x => if x = 0 then none else some x

/-- `activation * x` -/
def scaled (v : List Nat) (x : Rat) : List Rat := v.map fun a : Nat => A.fl (a * x)

/-- `cum_w += term` -/
def addTo (x y : List Rat) : Except Err (List Rat) :=
  if x.length = y.length then .ok (List.zipWith (fun a b => A.fl (a + b)) x y) else .error .valueError

/-- `cum_pred.replace(0, "zero").replace(np.nan, 0) + term`, then `.replace(0, np.nan).replace("zero", 0)`, lines 466-470: adding a
number to the text "zero" raises `TypeError`. -/
def accumulate (cum : List (Option Rat)) (term : List Rat) : Except Err (List (Option Rat)) :=
  if cum.any fun c => c = some 0 then .error .typeError
  else if cum.length = term.length then
    .ok (List.zipWith (fun c t => if A.fl (c.getD 0 + t) = 0 then none else some (A.fl (c.getD 0 + t))) cum term)
  else .error .valueError

/-- One turn of the loop of lines 443-471: `acc` is `(cum_pred, cum_w)` or `None`. -/
def weightedStep (acc : Option (List (Option Rat) × List Rat)) (v : Voter Rat) : Except Err (Option (List (Option Rat) × List Rat)) :=
  match weightOf v.weight with
  | none => .ok acc
  | some w =>
    if v.act.length = 0 then .ok acc
    else
      match acc with
      | none =>
        .ok (some (v.act.map fun a : Nat => if a = 0 then none else some (A.fl (A.fl (v.pred * a) * w)), scaled A v.act w))
      | some (cum, cumW) => do
        let cum ← accumulate A cum ((scaled A v.act v.pred).map fun q => A.fl (q * w))
        let cumW ← addTo A cumW (scaled A v.act w)
        .ok (some (cum, cumW))

/-- `c / w`, NaN when `c` is missing -/
def quotient (c : Option Rat) (w : Rat) : Num :=
  match c with
  | none => .nan
  | some c => if w = 0 then Num.div (.fin c) (.fin 0) else .fin (A.fl (c / w))

/-- `calc_ruleset_prediction_weighted_regressor_unstacked`, `/repo/ruleskit/utils/rfunctions.py` lines 433-475 -/
def weightedRegressor (rules : List (Voter Rat)) : Except Err (List Num) :=
  if rules.length = 0 then .ok []
  else do
    match ← rules.foldlM (weightedStep A) none with
    | none => .error .valueError
    | some (cum, cumW) =>
      if cum.length = cumW.length then .ok (List.zipWith (quotient A) cum cumW) else .error .valueError

/-- A rule whose column is kept by `init_weights_stacked`: it has a weight which is not zero, and is active somewhere, lines 410-429 -/
def kept {α} (v : Voter α) : Bool := (weightOf v.weight).isSome && v.act.any fun a => a ≠ 0

/-- A cell of `prediction_vectors * weights`, as `sum` sees it (missing cells count as 0), `/repo/ruleskit/ruleset.py` lines 1294 and 1301 -/
def productCell (i : Nat) (v : Voter Rat) : Rat :=
  match v.act[i]?, weightOf v.weight with
  | some a, some w => if a = 0 then 0 else A.fl (A.fl (a * v.pred) * A.fl (a * w))
  | _, _ => 0

/-- A cell of `weights`, as `sum` sees it -/
def weightCell (i : Nat) (v : Voter Rat) : Rat :=
  match v.act[i]?, weightOf v.weight with
  | some a, some w => A.fl (a * w)
  | _, _ => 0

/-- `calc_ruleset_prediction_weighted_regressor_stacked`, `/repo/ruleskit/utils/rfunctions.py` lines 478-483; `n` points -/
def weightedRegressorStacked (n : Nat) (rules : List (Voter Rat)) : Except Err (List Num) :=
  let cols := rules.filter kept
  if cols.length = 0 then .error .valueError
  else .ok ((List.range n).map fun i => quotient A (some (A.sum (cols.map (productCell A i)))) (A.sum (cols.map (weightCell A i))))

/-! ## Classes -/

/-- `preds.loc[p] = v` or `preds.loc[p] += v`, lines 568-573 -/
def addRow (t : List (Label × List Rat)) (p : Label) (v : List Rat) : Except Err (List (Label × List Rat)) :=
  match t with
  | [] => .ok [(p, v)]
  | (q, u) :: rest =>
    if u.length ≠ v.length then .error .valueError
    else if q.eq p then .ok ((q, List.zipWith (fun a b => A.fl (a + b)) u v) :: rest)
    else (addRow rest p v).map ((q, u) :: ·)

/-- One turn of the loop of lines 543-573 -/
def classStep (t : List (Label × List Rat)) (v : Voter Label) : Except Err (List (Label × List Rat)) :=
  match weightOf v.weight with
  | none => .ok t
  | some w => if Rule.nones v.act = 0 then .ok t else addRow A t v.pred (scaled A v.act w)

/-- `calc_ruleset_prediction_weighted_classificator_unstacked`, lines 525-584; the decision at a point is that of `Vote.decideClass` -/
def weightedClassifier (rules : List (Voter Label)) : Except Err (List Label) :=
  if rules.length = 0 then .ok []
  else do
    let t ← rules.foldlM (classStep A) []
    if t.length = 0 then .error .valueError
    else .ok ((Vote.columns (t.map fun p => (p.1, p.2.map Num.fin))).map Vote.decideClass)

end Verif.Rounded
