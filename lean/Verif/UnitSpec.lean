import Verif.RuleSpec
import Verif.Rule

/-!
# Another unit of the target: specification

The target `t` is replaced by `a * t + b`, as from degrees Celsius to degrees Fahrenheit.
-/

namespace Verif.Units

open Verif

/-- A target, or a prediction, in the other unit; missing remains missing. -/
def convert (a b : Rat) : Option Rat → Option Rat := Option.map fun t => a * t + b

/-- What the criterion is multiplied with: squared errors have the squared unit, and the relative measures have none. -/
def factor (a : Rat) (method : String) : Rat :=
  if method = "mse" then a * a else if method = "mae" then a else 1

/-- A square root which is exact for the conversion: `√(a² t) = a √t`. -/
structure Root (sqrt : Num → Num) (a : Rat) : Prop where
  nan : sqrt .nan = .nan
  fin : ∀ t : Rat, 0 ≤ t → ∃ s : Rat, sqrt (.fin t) = .fin s ∧ sqrt (.fin (a * a * t)) = .fin (a * s)

end Verif.Units
