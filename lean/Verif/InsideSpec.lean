import Verif.SetEvalSpec

/-!
# The targets inside a rule
-/

namespace Verif.Spec

open Classical in
/-- The targets of the points which the condition selects, in their order -/
noncomputable def targetsInside {β : Type} (c : Cond) (xs : Xs) (y : List β) : List β :=
  (((pointsOf xs).zip y).filter fun p => decide (Selects c xs p.1)).map (·.2)

/-- Two data sets, of whatever size and in whatever form, have the same targets inside the condition. -/
structure SameInside {β : Type} (c : Cond) (xs : Xs) (y : List β) (xs' : Xs) (y' : List β) : Prop where
  talks : TalksAbout c xs
  talks' : TalksAbout c xs'
  length : (pointsOf xs).length = y.length
  length' : (pointsOf xs').length = y'.length
  some_points : y ≠ []
  some_points' : y' ≠ []
  inside : (targetsInside c xs y).Perm (targetsInside c xs' y')

end Verif.Spec
