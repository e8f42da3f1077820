import Verif.SetEvalSpec

/-!
# Narrower conditions
-/

namespace Verif.Spec

/-- The features `f` and `g` are about the same column: found by its index in an array, by its name in a DataFrame. -/
def AboutSame : Xs → Feature → Feature → Prop
  | .arr _, f, g => f.index = g.index
  | .frame _, f, g => f.name = g.name

/-- Every feature of `gs` is among those of `fs`, with bounds inside its own. -/
def Narrower (xs : Xs) (fs gs : List Feature) : Prop :=
  ∀ g ∈ gs, ∃ f ∈ fs, AboutSame xs f g ∧ g.lo.le f.lo = true ∧ f.hi.le g.hi = true

/-- The first condition asks at least what the second one asks. -/
def NarrowerCond (xs : Xs) (c d : Cond) : Prop := ∃ fs gs, Shows c fs ∧ Shows d gs ∧ Narrower xs fs gs

/-- Every entry 1 of the first vector is 1 in the second one, of the same length. -/
def Below (v w : List Nat) : Prop := v.length = w.length ∧ ∀ i : Nat, v[i]? = some 1 → w[i]? = some 1

/-- Some number lies between the bounds. -/
def Satisfiable (f : Feature) : Prop := ∃ q, AtLeast f.lo q ∧ AtMost f.hi q

end Verif.Spec
