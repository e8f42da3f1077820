import Verif.SetAttr

/-!
# What the attributes which a ruleset takes from its activation should be (C82)
-/

namespace Verif.Spec

open Verif Verif.Activation Verif.SetHeap

/-- What an attribute of an activation should be for the vector `u`: its number of points, or what the readers of C03 should answer -/
def Item.Expected (u : List Bool) : Item → Out → Prop
  | .length, o => o = .nat u.length
  | .read r, o => r.answer u o

end Verif.Spec
