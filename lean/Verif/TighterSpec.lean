import Verif.RuleSet

/-!
# Specifications: stricter thresholds
-/

namespace Verif.Spec

open Thresholds (Lim Dict Limits)

/-- `l'` as the limit named `k` asks at least what `l` asks: a higher minimum, a lower maximum, or the same. -/
def TighterLim (k : String) (l l' : Lim) : Prop :=
  l' = l ∨ ∃ a b : Rat, l = .num (.fin a) ∧ l' = .num (.fin b) ∧ ((k = "min" ∧ a ≤ b) ∨ (k = "max" ∧ b ≤ a))

/-- `t'` has all the limits of `t`, or tighter ones, and possibly limits on other attributes and other limits on the same attributes.
The functions ("arg") applied to the attributes are the same. -/
def Tighter (t t' : Limits) : Prop :=
  ∀ name th, Dict.get? t name = some th → ∃ th', Dict.get? t' name = some th' ∧ Dict.get? th' "arg" = Dict.get? th "arg" ∧
    ∀ p ∈ th, p.1 ≠ "arg" → ∃ l', Dict.get? th' p.1 = some l' ∧ TighterLim p.1 p.2 l'

/-- The same for `Rule.THRESHOLDS`, which can be `None` -/
def TighterOpt : Option Limits → Option Limits → Prop
  | none, _ => True
  | some t, some t' => Tighter t t'
  | some _, none => False

/-- The same rule, whatever the list of the verdicts which the model keeps -/
def KeptRule (r r' : Rule) : Prop := { r' with log := [] } = { r with log := [] }

/-- Two members of rulesets -/
def KeptMember (m m' : Member) : Prop := m'.kind = m.kind ∧ KeptRule m.rule m'.rule

/-- The same up to the stored activation -/
def KeptMemberBut (m m' : Member) : Prop :=
  m'.kind = m.kind ∧ { m'.rule with act := none, log := [] } = { m.rule with act := none, log := [] }

end Verif.Spec
