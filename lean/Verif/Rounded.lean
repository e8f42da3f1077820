import Verif.RFunctions
import Mathlib.Data.Int.Log
import Mathlib.Data.Rat.Floor

/-!
# Figures computed with rounding

The other files compute with exact rational numbers.  Here every operation is rounded, as with floats: model of the figures of
`/repo/ruleskit/utils/rfunctions.py` which need arithmetic.  Simplification: no result is too big or too small for a float (overflow
and underflow are not modelled); infinite values are not modelled.  A missing value (NaN) is `none`.
-/

namespace Verif.Rounded

/-- `s` is a sum of the numbers of the list, in some order and grouping, every addition being rounded by `fl`; `d` is the number of
roundings in the longest chain.  numpy and pandas choose the order and the grouping. -/
inductive AddsUp (fl : Rat → Rat) : Nat → List Rat → Rat → Prop
  | one (x : Rat) : AddsUp fl 0 [x] x
  | add {d d' : Nat} {l l' m : List Rat} {a b : Rat} : AddsUp fl d l a → AddsUp fl d' l' b → m.Perm (l ++ l') →
      AddsUp fl (max d d' + 1) m (fl (a + b))

/-- A machine: how it rounds, and how it adds up arrays -/
structure Machine where
  /-- the float which stands for this number -/
  fl : Rat → Rat
  /-- the greatest relative error -/
  u : Rat
  u_nonneg : 0 ≤ u
  u_lt_one : u < 1
  close : ∀ x, |fl x - x| ≤ u * |x|
  mono : ∀ x y, x ≤ y → fl x ≤ fl y
  one : fl 1 = 1
  /-- `np.sum`, or the `sum` of pandas -/
  sum : List Rat → Rat
  sum_adds : ∀ l, l ≠ [] → ∃ d, AddsUp fl d l (sum l)

/-! ## Doubles -/

/-- The nearest integer, the even one when there are two -/
def nearest (x : Rat) : Int :=
  if x - ⌊x⌋ < 1 / 2 then ⌊x⌋ else if 1 / 2 < x - ⌊x⌋ then ⌊x⌋ + 1 else if ⌊x⌋ % 2 = 0 then ⌊x⌋ else ⌊x⌋ + 1

/-- The nearest double: 53 binary digits, to even when there are two (IEEE 754 binary64 without limits of the exponent) -/
def double (x : Rat) : Rat :=
  if x = 0 then 0 else nearest (x / 2 ^ (Int.log 2 |x| - 52)) * 2 ^ (Int.log 2 |x| - 52)

/-- One addition after the other, from the left: what numpy does with fewer than eight numbers -/
def inOrder (fl : Rat → Rat) : List Rat → Rat
  | [] => 0
  | x :: l => l.foldl (fun a b => fl (a + b)) x

/-! ## Figures -/

variable (A : Machine)

/-- `np.mean` of numbers -/
def mean (l : List Rat) : Rat := A.fl (A.sum l / l.length)

/-- `np.nanmean`, and `mean` of a Series: missing values count as 0 in the sum, and not at all in the number of values -/
def nanmean (l : List (Option Rat)) : Option Rat :=
  let n := (l.filter fun x => x.isSome).length
  if n = 0 then none else some (A.fl (A.sum (l.map fun x => x.getD 0) / n))

/-- `conditional_mean` of one activation vector, `/repo/ruleskit/utils/rfunctions.py` lines 78-86 -/
def conditionalMean (act : List Nat) (y : List (Option Rat)) : Except Err (Option Rat) := do
  let yc ← RFun.extract act y
  let l := yc.filterMap id
  if l.length = 0 then .ok none else .ok (some (mean A l))

/-- `conditional_mean` of one column of a DataFrame, line 88 -/
def conditionalMeanColumn (act : List Nat) (y : List (Option Rat)) : Except Err (Option Rat) := do
  let yc ← RFun.extract act y
  .ok (nanmean A yc)

/-- The square of `conditional_std` of one activation vector without missing values, lines 104-111: mean, deviations, squares,
their sum divided by one less than their number -/
def conditionalVar (act : List Nat) (y : List Rat) : Except Err (Option Rat) := do
  let yc ← RFun.extract act y
  if yc.length = 0 then .ok none
  else if yc.length = 1 then .ok (some 0)
  else
    .ok (some (A.fl (A.sum (yc.map fun x => A.fl (A.fl (x - mean A yc) * A.fl (x - mean A yc))) / ((yc.length : Rat) - 1))))

/-- `prediction_vector.sub(y, axis=0)`, lines 160-162 -/
def errors (pred y : List (Option Rat)) : Except Err (List (Option Rat)) :=
  if pred.length ≠ y.length then .error .valueError
  else .ok (List.zipWith (fun p t => match p, t with
    | some p, some t => some (A.fl (p - t))
    | _, _ => none) pred y)

/-- `mse_function` of one Series, lines 131-164 -/
def mse (pred y : List (Option Rat)) : Except Err (Option Rat) := do
  let e ← errors A pred y
  .ok (nanmean A (e.map fun x => x.map fun x => A.fl (x * x)))

/-- `mae_function` of one Series, lines 173-206 -/
def mae (pred y : List (Option Rat)) : Except Err (Option Rat) := do
  let e ← errors A pred y
  .ok (nanmean A (e.map fun x => x.map fun x => |x|))

/-- `coverage` of an activation, `/repo/ruleskit/activation.py` line 1149 -/
def coverage (act : List Nat) : Rat := A.fl (((act.filter fun a => a ≠ 0).length : Rat) / act.length)

/-- `success_rate` of one label against an array, `/repo/ruleskit/utils/rfunctions.py` lines 318-321 -/
def successRate (prediction : Label) (y : List Label) : Option Rat :=
  if y.length = 0 then none else some (A.fl (((y.filter fun t => prediction.eq t).length : Rat) / y.length))

/-- `class_probabilities` of one activation vector, lines 36-43 -/
def classProbabilities (act : List Nat) (y : List Label) : Except Err (List (Label × Rat)) := do
  let yc ← RFun.extract act y
  let count := RFun.counter yc
  let n := yc.length
  let proba := count.map fun p => (p.1, A.fl ((p.2 : Rat) / n))
  if proba.length = 0 then .error .indexError
  else .ok (proba.insertionSort fun a b => RFun.labelLe a.1 b.1 = true)

end Verif.Rounded
