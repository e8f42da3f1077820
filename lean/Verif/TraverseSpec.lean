import Verif.Traverse

/-!
# Vocabulary for the elements of nested lists
-/

namespace Verif.Spec

open Verif Traverse

variable {α : Type}

/-- The items of a list, a tuple or a ruleset -/
def items : Obj α → List (Obj α)
  | .other _ => []
  | .list l => l
  | .tuple l => l
  | .ruleset l => l.getD []

/-- An object of one of the given classes -/
def OfTypes (types : List TreeType) : Obj α → Prop
  | .other _ => False
  | .list _ => .list ∈ types
  | .tuple _ => .tuple ∈ types
  | .ruleset _ => .ruleset ∈ types

/-- `x` is an element of `o` which is not nested further; it is found at item `i` of `o`, item `j` of this item and so on for the
position `[i, j, …]`. -/
inductive ElementAt (types : List TreeType) : Obj α → List Nat → Obj α → Prop
  | here {o : Obj α} (h : ¬ OfTypes types o) : ElementAt types o [] o
  | inside {o c x : Obj α} {i : Nat} {p : List Nat} (h : OfTypes types o) (hc : (items o)[i]? = some c) (hx : ElementAt types c p x) :
      ElementAt types o (i :: p) x

end Verif.Spec
