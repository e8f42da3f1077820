import Verif.RuleSetOps
import Verif.RuleSetFit

/-!
# The class which a ruleset announces

Model of the property `rule_type` of rulesets, `/repo/ruleskit/ruleset.py` lines 217-230.
-/

namespace Verif.RuleSet

/-- A class given to the setter: one of the two classes of rules, or a class which is no class of rules.  Simplification: the class `Rule`
itself, which the setter accepts, is left out. -/
inductive ClassArg where
  | rules (k : Kind)
  | other

/-- The setter of `rule_type`, lines 223-230 -/
def setRuleType : ClassArg → Py RuleSet Unit
  | .rules k => Py.modify fun s => { s with ruleType := some k }
  | .other => Py.throw .typeError

/-- `s.rules = rules` followed by `s.rule_type = c` -/
def assignRules (R : RsEnv) (rules : List Member) (c : ClassArg) : Py RuleSet Unit := do
  setRules R rules
  setRuleType c

end Verif.RuleSet
