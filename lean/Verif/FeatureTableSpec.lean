import Verif.RuleSet

/-!
# Features numbered by a table

Spec of C86: `RuleSet.all_features_indexes` says which column each feature has.
-/

namespace Verif.Spec

open Verif

/-- The table gives this number to this feature. -/
def TableGives (T : Thresholds.Dict Int) (f : String) (i : Int) : Prop := (f, i) ∈ T

/-- The second rule is the first one with the numbers of the table. -/
def Renumbered (T : Thresholds.Dict Int) (m m' : Member) : Prop :=
  m'.kind = m.kind ∧ ∃ na idx, m.rule.cond.names = some na ∧ List.Forall₂ (TableGives T) na idx ∧
    m'.rule = { m.rule with cond := { m.rule.cond with indexes := some idx } }

/-- The table has every feature of the rule. -/
def Knows (T : Thresholds.Dict Int) (m : Member) : Prop :=
  ∀ na, m.rule.cond.names = some na → ∀ f ∈ na, ∃ i, TableGives T f i

/-- The same settings without table -/
def withoutTable (R : RsEnv) : RsEnv := { R with allIndexes := [] }

end Verif.Spec
