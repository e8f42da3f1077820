import Verif.VoteSpec

/-!
# Vocabulary for the range of predictions
-/

namespace Verif.Spec

open Verif

/-- An activation vector -/
def ZeroOne (v : List Nat) : Prop := ∀ a ∈ v, a = 0 ∨ a = 1

/-- A number between `lo` and `hi` -/
def Between (lo hi : Rat) (x : Num) : Prop := ∃ q : Rat, x = .fin q ∧ lo ≤ q ∧ q ≤ hi

/-- Missing, or a number between `lo` and `hi` -/
def MissingOrBetween (lo hi : Rat) (x : Num) : Prop := x = .nan ∨ Between lo hi x

end Verif.Spec
