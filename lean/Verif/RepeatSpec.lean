import Verif.RuleSpec

/-!
# The same points several times
-/

namespace Verif.Spec

open Verif

/-- `k` times the same list -/
def copies {α} (k : Nat) (l : List α) : List α := (List.replicate k l).flatten

/-- `xs'` and `y'` have each point of `xs`, with its target, `k` times, in any order. -/
def Repeated {β : Type} (k : Nat) : Xs → List β → Xs → List β → Prop
  | .arr m, y, .arr m', y' => m.ncols = m'.ncols ∧ m.rows.length = y.length ∧ m'.rows.length = y'.length ∧
      (m'.rows.zip y').Perm (copies k (m.rows.zip y))
  | .frame f, y, .frame f', y' => f.columns = f'.columns ∧ f.rows.length = y.length ∧ f'.rows.length = y'.length ∧
      (f'.rows.zip y').Perm (copies k (f.rows.zip y))
  | _, _, _, _ => False

end Verif.Spec
