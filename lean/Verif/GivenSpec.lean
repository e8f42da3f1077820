import Verif.Condition

/-!
# Vocabulary for C11: numbers given as other objects
-/

namespace Verif.Spec

open Verif

/-- The object which is given as a bound is equal to this number: an integer or float to its value, `True` to 1 and `False` to 0. -/
inductive StandsFor : V → Num → Prop where
  | int (i : Int) : StandsFor (.int i) (.fin i)
  | float (x : Num) : StandsFor (.float x) x
  | yes : StandsFor (.bool true) (.fin 1)
  | no : StandsFor (.bool false) (.fin 0)

end Verif.Spec
