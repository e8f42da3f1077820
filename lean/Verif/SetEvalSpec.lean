import Verif.ConditionSpec
import Verif.Rule

/-!
# Vocabulary for the points which rules select
-/

namespace Verif.Spec

/-- The points, in order -/
def pointsOf : Xs → List (List Num)
  | .arr m => m.rows
  | .frame f => f.rows

/-- The point is in the hyper-rectangle: columns are found by their index in an array, by their name in a DataFrame. -/
def InBoxOf (fs : List Feature) : Xs → List Num → Prop
  | .arr m, r => InBox fs m.ncols r
  | .frame f, r => InBoxNamed fs f.columns r

/-- The columns of these features are there. -/
def HasColumns (fs : List Feature) : Xs → Prop
  | .arr m => ∀ f ∈ fs, InRange m.ncols f.index
  | .frame x => fs ≠ [] ∧ ∀ f ∈ fs, f.name ∈ x.columns

/-- The condition, which a user can obtain, talks about columns of `xs`. -/
def TalksAbout (c : Cond) (xs : Xs) : Prop := Reach c ∧ ∃ fs, Shows c fs ∧ HasColumns fs xs

/-- The condition selects the point. -/
def Selects (c : Cond) (xs : Xs) (r : List Num) : Prop := ∃ fs, Shows c fs ∧ InBoxOf fs xs r

end Verif.Spec
