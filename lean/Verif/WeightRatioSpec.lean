import Verif.RuleSetFit

/-!
# Weights which only differ by a factor

Spec of C85: what a user can say of weights without looking at how predictions are computed.
-/

namespace Verif.Spec

open Verif Vote

/-- The weights of the second Series are `a` times those of the first one, and it has the same entries. -/
def TimesWeights (a : Rat) (w w' : Weights) : Prop := ∀ name, w' name = (w name).map (Num.mul (.fin a))

/-- The Series has a number for this name, which is neither 0 nor missing. -/
def weighty (w : Weights) (name : String) : Bool :=
  match w name with
  | none => false
  | some x => decide (x ≠ .fin 0 ∧ x ≠ .nan)

/-- Every rule has the same weight. -/
def SameWeight (text : Cond → String) (rules : List Rule) (a : Rat) (w : Weights) : Prop :=
  ∀ r ∈ rules, w (text r.cond) = some (.fin a)

end Verif.Spec
