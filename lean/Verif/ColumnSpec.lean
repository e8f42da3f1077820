import Verif.ConditionSpec
import Verif.Rule

/-!
# Specifications: the columns which rules use
-/

namespace Verif.Spec

/-- The features have the column from which `f` is read: an array by number, a DataFrame by name. -/
def HasColumn : Xs → Feature → Prop
  | .arr m, f => InRange m.ncols f.index
  | .frame d, f => f.name ∈ d.columns

/-- The values of the column from which `f` is read, one by point. -/
def columnOf : Xs → Feature → List Num
  | .arr m, f => m.rows.map fun r => cell m.ncols r f.index
  | .frame d, f => d.rows.map fun r => cellNamed d.columns r f.name

/-- `x` and `x'` have as many points, and the same values in the columns from which `fs` are read.  Whatever is in the other columns,
how many there are, and whether it is an array or a DataFrame, does not matter. -/
structure SameUsed (fs : List Feature) (x x' : Xs) : Prop where
  rows : x'.length = x.length
  has : ∀ f ∈ fs, HasColumn x f
  has' : ∀ f ∈ fs, HasColumn x' f
  same : ∀ f ∈ fs, columnOf x' f = columnOf x f

/-- A condition a user can obtain, about at least one feature, does not see the difference between `x` and `x'`. -/
def SameForCond (c : Cond) (x x' : Xs) : Prop := ∃ fs, Reach c ∧ Shows c fs ∧ fs ≠ [] ∧ SameUsed fs x x'

/-- The array with more columns at the end. -/
structure Widened (m m' : Mat) : Prop where
  wider : m.ncols ≤ m'.ncols
  rows : List.Forall₂ (fun r r' => r.length = m.ncols ∧ r <+: r') m.rows m'.rows

/-- The DataFrame with the columns in another order, or with more columns: each row has all the entries (name, value) it had. -/
structure MoreColumns (d d' : Frame) : Prop where
  names : d.columns ⊆ d'.columns
  once : d.columns.Nodup
  once' : d'.columns.Nodup
  rows : List.Forall₂ (fun r r' => r.length = d.columns.length ∧ ∀ p ∈ d.columns.zip r, p ∈ d'.columns.zip r') d.rows d'.rows

end Verif.Spec
