import Verif.ConditionSpec

/-!
# Specification: bounds written as texts
-/

namespace Verif.Spec

/-- `z` is `q` without the digits after the point: the integer part of a number which is not negative, and the opposite of the
integer part of the opposite of a negative one. -/
def CutOff (q : Rat) (z : Int) : Prop :=
  (0 ≤ q → (z : Rat) ≤ q ∧ q < z + 1) ∧ (q < 0 → q ≤ z ∧ (z : Rat) - 1 < q)

end Verif.Spec
