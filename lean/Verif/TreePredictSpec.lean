import Verif.TreeSpec
import Verif.VoteSpec

/-!
# What a decision tree predicts (C84)
-/

namespace Verif.Spec

/-- The number predicted for a sample by a regression tree: the value of the leaf in which it falls -/
def treeNumber (t : DTree) (x : Nat → Rat) : Rat := (t.falls x).2.headD 0

/-- The class of a leaf with these numbers of points: the first one which has the most, by its name or by its number -/
def ClassOf (classes : Option (List Label)) (v : List Rat) (c : Label) : Prop :=
  ∃ (i : Nat) (q : Rat), v[i]? = some q ∧ (∀ j r, v[j]? = some r → r ≤ q ∧ (j < i → r < q)) ∧
    ((classes = none ∧ c = .num (.fin i)) ∨ ∃ names, classes = some names ∧ names[i]? = some c)

/-- No feature is asked to be at most a threshold and below this to be greater than another one. -/
def NoReturn (t : DTree) : Prop := ∀ e ∈ t.leaves, ∀ p1 u p2, e.1 = p1 ++ u :: p2 → u.Kept p2

/-- Samples given by an array: `x k` are the features of the sample `k`, which are between their minima and maxima, and not equal to a
threshold of the tree. -/
structure TreeSamples (I : Tree.Input) (n : Nat) (t : DTree) (xs : Mat) (x : Nat → Nat → Rat) : Prop where
  some : xs.rows ≠ []
  columns : n ≤ xs.ncols
  numbers : ∀ (k : Nat) row, xs.rows[k]? = .some row → ∀ f < n, rowOf xs.ncols row f = .fin (x k f)
  inside : ∀ (k : Nat) row, xs.rows[k]? = .some row → InsideBounds I.xmins I.xmaxs (rowOf xs.ncols row)
  apart : ∀ k < xs.rows.length, ∀ e ∈ t.leaves, ∀ u ∈ e.1, x k u.feature ≠ u.threshold

end Verif.Spec
