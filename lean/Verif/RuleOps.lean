import Verif.Rule

/-!
# Rules combined with rules

Model of `Rule.__and__`, `/repo/ruleskit/rule.py` lines 149-153.
-/

namespace Verif.Rule

open Verif

/-- `self._activation & other._activation`, `/repo/ruleskit/activation.py` lines 568-583.  `None & x` has no operator,
`x & None` asks `None` for its length.  `fits` tells whether the result can be stored (two activations kept as integers
cannot, a taken file name, …). -/
def meetAct (fits : List Nat → List Nat → Except Err Unit) (a b : Option (List Nat)) : Except Err (List Nat) :=
  match a, b with
  | none, _ => .error .typeError
  | some _, none => .error .attributeError
  | some x, some y =>
    if x.length ≠ y.length then .error .valueError
    else do
      fits x y
      .ok (List.zipWith (fun p q => p * q % 256) x y)

/-- `self & other`, `/repo/ruleskit/rule.py` lines 149-153: a new rule of the class of `self`, made from the intersections of
the conditions and of the activations.  `by_` is `SORT_ACCORDING_TO` of the conditions. -/
def and (E : Env) (by_ : String) (fits : List Nat → List Nat → Except Err Unit) (self other : Rule) : Except Err Rule := do
  let condition ← Cond.and by_ self.cond other.cond
  let activation ← meetAct fits self.act other.act
  match make E condition (some activation) with
  | (.ok _, r) => .ok r
  | (.error e, _) => .error e

end Verif.Rule
