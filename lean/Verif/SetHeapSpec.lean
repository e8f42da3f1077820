import Verif.SetHeap
import Verif.History

/-!
# What programs with rulesets should see of activations
-/

namespace Verif.SetHeap

open Verif Verif.Activation Verif.RuleHeap Verif.Spec

/-- The activations of the rules are live objects with the vectors `vs`. -/
def Held (us : Values) (rules : List HRule) (vs : List (List Bool)) : Prop :=
  ∃ ids : List Nat, rules.map (·.act) = ids.map some ∧ Vectors us ids vs

/-- A ruleset all rules of which have live activations of `n` points; its own, if it has one, is another live object. -/
structure Inv (w₀ : World) (n : Nat) (st : State) (us : Values) : Prop where
  reach : Activation.Reach w₀ st.h us
  fits : st.h.w.dtype = .str ∨ 2 ≤ n
  rules : ∀ r ∈ st.s.rules, ∃ i x, r.act = some i ∧ us[i]? = some (some x) ∧ x.length = n ∧ st.s.act ≠ some i
  own : ∀ i, st.s.act = some i → ∃ x, us[i]? = some (some x) ∧ x.length = n

/-- The rules which a program appends have activations of their own: live objects which are not that of the ruleset. -/
def SetOp.Fine (n : Nat) (st : State) (us : Values) : SetOp → Prop
  | .append _ r => ∃ i x, r.act = some i ∧ us[i]? = some (some x) ∧ x.length = n ∧ st.s.act ≠ some i
  | _ => True

end Verif.SetHeap
