import Verif.Rule

/-!
# Points of several data sets
-/

namespace Verif.Spec

open Verif

/-- Point `i` of the features `xs` and point `j` of the features `xs'` have the same values: rows of arrays with as many columns, rows
of DataFrames which agree under every name the two have in common. -/
def SamePoint : Xs → Nat → Xs → Nat → Prop
  | .arr m, i, .arr m', j => m.ncols = m'.ncols ∧ ∃ r, m.rows[i]? = some r ∧ m'.rows[j]? = some r
  | .frame f, i, .frame f', j => ∃ r r', f.rows[i]? = some r ∧ f'.rows[j]? = some r' ∧
      ∀ n ∈ f.columns, n ∈ f'.columns → r[f.columns.idxOf n]? = r'[f'.columns.idxOf n]?
  | _, _, _, _ => False

/-- `a` has at `i` what `b` has at `j`. -/
def Same {α} (i j : Nat) (a b : List α) : Prop := ∃ x, a[i]? = some x ∧ b[j]? = some x

end Verif.Spec
