import Verif.Py
import Verif.Num
import Mathlib.Data.List.Sort

/-!
# Figures of a rule

Model of the first part of `/repo/ruleskit/utils/rfunctions.py`: class frequencies, conditional mean and standard
deviation, error measures, success rate.  Square roots are not modelled: a standard deviation is represented by its
square.  Arrays and Series are lists.
-/

namespace Verif

/-- A class, a target or a predicted value: a number or a text. -/
inductive Label where
  | num (x : Num)
  | text (s : String)
  deriving DecidableEq, Repr, Inhabited

namespace Label

/-- `a == b` -/
def eq : Label → Label → Bool
  | num x, num y => x.beq y
  | text s, text t => decide (s = t)
  | _, _ => false

/-- missing: `np.nan` -/
def isNaN : Label → Bool
  | num x => x.isNaN
  | text _ => false

end Label

namespace RFun

/-- `np.extract(activation, y)`: the entries of `y` where `activation` is not zero.  numpy raises `IndexError` when
`activation` has a non-zero entry beyond the end of `y`. -/
def extract {α} : List Nat → List α → Except Err (List α)
  | [], _ => .ok []
  | a :: act, [] => if a ≠ 0 then .error .indexError else extract act ([] : List α)
  | a :: act, x :: y => (extract act y).map fun r => if a ≠ 0 then x :: r else r

/-- `conditional_mean` of one activation vector, `/repo/ruleskit/utils/rfunctions.py` lines 78-86 -/
def conditionalMean (act : List Nat) (y : List Num) : Except Err Num := do
  let yc ← extract act y
  let l := Num.dropna yc
  if l.length = 0 then .ok .nan else .ok (Num.mean l)

/-- The square of `np.nanstd(l, ddof=ddof)`: NaN when there are no more than `ddof` values which are not NaN. -/
def nanvar (ddof : Nat) (l : List Num) : Num :=
  let v := Num.dropna l
  let m := Num.mean v
  if v.length ≤ ddof then .nan
  else Num.div (Num.sum (v.map fun x => Num.mul (Num.sub x m) (Num.sub x m))) (.fin ((v.length : Rat) - ddof))

/-- The square of `conditional_std` of one activation vector, `/repo/ruleskit/utils/rfunctions.py` lines 104-111 -/
def conditionalVar (act : List Nat) (y : List Num) : Except Err Num := do
  let yc ← extract act y
  if yc.length = 0 then .ok .nan
  else if yc.length = 1 then .ok (.fin 0)
  else .ok (nanvar 1 yc)

/-- How `str` writes probabilities, when classes are texts: see `probaOrder`. -/
abbrev FloatStr := Rat → String

/-- `Counter(l)`: distinct values in order of first appearance, with their number of occurrences.  Python's dictionaries
compare keys with `==`; NaN keys are not modelled (the theorems exclude them). -/
def counter (l : List Label) : List (Label × Nat) :=
  l.foldl (fun acc x =>
    if acc.any (fun p => p.1.eq x) then acc.map (fun p => if p.1.eq x then (p.1, p.2 + 1) else p)
    else acc ++ [(x, 1)]) []

/-- Order of `argsort` on the first column: numbers by value, texts by code points.  Mixed columns do not exist: numpy
turns them all into texts. -/
def labelLe : Label → Label → Bool
  | .num x, .num y => x.le y || y.isNaN
  | .text s, .text t => decide (s ≤ t)
  | .num _, .text _ => true
  | .text _, .num _ => false

/-- `class_probabilities` of one activation vector, `/repo/ruleskit/utils/rfunctions.py` lines 36-43: classes in
increasing order with their frequency.  Without any activated point the array has one dimension and `proba[:, 0]` raises
`IndexError`. -/
def classProbabilities (act : List Nat) (y : List Label) : Except Err (List (Label × Rat)) := do
  let yc ← extract act y
  let count := counter yc
  let n := yc.length
  let proba := count.map fun p => (p.1, (p.2 : Rat) / n)
  if proba.length = 0 then .error .indexError
  else .ok (proba.insertionSort fun a b => labelLe a.1 b.1 = true)

/-- `p < q` between two probabilities as they are in the array of `class_probabilities`: numbers when classes are numbers,
texts when classes are texts (an array has one type). -/
def probaLt (S : FloatStr) : Label × Rat → Label × Rat → Bool
  | (.text _, p), (.text _, q) => decide (S p < S q)
  | (_, p), (_, q) => decide (p < q)

/-- `idx = prop.index(max(prop)); return self._prediction[idx][0]`, `/repo/ruleskit/rule.py` lines 737-739: the first
class whose probability is the greatest. -/
def bestClass (S : FloatStr) : List (Label × Rat) → Except Err Label
  | [] => .error .valueError
  | p :: rest => .ok (rest.foldl (fun best q => if probaLt S best q then q else best) p).1

/-! ## Error measures -/

/-- `prediction_vector.sub(y, axis=0)` after the comparison of lengths, `/repo/ruleskit/utils/rfunctions.py` lines 160-162 -/
def errors (pred y : List Num) : Except Err (List Num) :=
  if pred.length ≠ y.length then .error .valueError else .ok (List.zipWith Num.sub pred y)

/-- `x ** 2` -/
def square (x : Num) : Num := Num.mul x x

/-- `mse_function` of one Series, `/repo/ruleskit/utils/rfunctions.py` lines 131-164 -/
def mse (pred y : List Num) : Except Err Num := do
  let e ← errors pred y
  .ok (Num.nanmean (e.map square))

/-- `mse_norm`, `/repo/ruleskit/utils/rfunctions.py` lines 167-170 -/
def mseNorm (pred y : List Num) : Except Err Num := do
  let m ← mse pred y
  .ok (Num.div m (Num.mean (y.map fun t => square (Num.sub (Num.mean y) t))))

/-- `mae_function` of one Series, `/repo/ruleskit/utils/rfunctions.py` lines 173-206 -/
def mae (pred y : List Num) : Except Err Num := do
  let e ← errors pred y
  .ok (Num.nanmean (e.map Num.abs))

/-- `mae_norm`, `/repo/ruleskit/utils/rfunctions.py` lines 209-212 -/
def maeNorm (pred y : List Num) : Except Err Num := do
  let m ← mae pred y
  .ok (Num.div m (Num.mean (y.map fun t => Num.sub (Num.mean y) t)))

/-- `np.median`: NaN when a value is NaN; middle value, or mean of the two middle values, of the sorted array.  The mean of an
empty array is NaN. -/
def median (y : List Num) : Num :=
  if y.any Num.isNaN then .nan
  else
    let s := y.insertionSort fun a b => a.le b = true
    let n := s.length
    if n % 2 = 1 then (s[n / 2]?).getD .nan
    else Num.mean ((s.drop (n / 2 - 1)).take 2)

/-- `aae_function` of one Series, `/repo/ruleskit/utils/rfunctions.py` lines 215-248 -/
def aae (pred y : List Num) : Except Err Num := do
  let m ← mae pred y
  .ok (Num.div m (Num.mean (y.map fun t => Num.abs (Num.sub t (median y)))))

/-- `calc_regression_criterion`, `/repo/ruleskit/utils/rfunctions.py` lines 251-290; `method` is
`kwargs.get("criterion_method", "mse_norm")`, in lower case. -/
def regressionCriterion (method : String) (pred y : List Num) : Except Err Num :=
  if method = "mse" then mse pred y
  else if method = "mse_norm" then mseNorm pred y
  else if method = "mae" then mae pred y
  else if method = "mae_norm" then maeNorm pred y
  else if method = "aae" then aae pred y
  else .error .valueError

/-- `success_rate` of one label against an array, `/repo/ruleskit/utils/rfunctions.py` lines 318-321 -/
def successRate (prediction : Label) (y : List Label) : Num :=
  if y.length = 0 then .nan
  else .fin ((((y.filter fun t => prediction.eq t).length : Rat)) / y.length)

/-- `success_rate` of a prediction vector against an array, `/repo/ruleskit/utils/rfunctions.py` lines 322-325.  An empty
array gives an empty Series (`none`); comparing a Series and an array of different lengths raises `ValueError`. -/
def successRateVector (prediction y : List Label) : Except Err (Option Num) :=
  if y.length = 0 then .ok none
  else if prediction.length ≠ y.length then .error .valueError
  else .ok (some (Num.div (.fin (((List.zipWith Label.eq prediction y).count true : Nat) : Rat))
    (.fin ((prediction.filter fun p => !p.isNaN).length : Rat))))

/-- `calc_classification_criterion` of one activation vector and one label, `/repo/ruleskit/utils/rfunctions.py` lines
365-382 -/
def classificationCriterion (method : String) (act : List Nat) (prediction : Label) (y : List Label) : Except Err Num := do
  let yc ← extract act y
  if method = "success_rate" then .ok (successRate prediction yc) else .error .valueError

/-- `calc_classification_criterion` of one activation vector and a prediction vector, same lines -/
def classificationCriterionVector (method : String) (act : List Nat) (prediction y : List Label) :
    Except Err (Option Num) := do
  let yc ← extract act y
  if prediction.length ≠ act.length then .error .indexError
  let pc ← extract act prediction
  if method = "success_rate" then successRateVector pc yc else .error .valueError

end RFun

end Verif
