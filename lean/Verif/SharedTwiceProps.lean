import Verif.SharedRulesProps
import Verif.AgainProps

/-!
# A ruleset which has a rule object twice (C61)
-/

namespace Verif.SharedRulesProps

open Verif Spec SharedRules RuleSetProps

/-- Predictions must be at least 3. -/
def strictRs : RsEnv := { someRs with env := AgainProps.listedEnv .regression 3 }

/-- **C61 is false of a rule object which a ruleset has twice**: after `s += rule` with a rule of `s`, `fit` works on this object twice.  If the first time
makes it bad, the second one erases its prediction and the size of its training set, which two equal rules would have kept. -/
theorem C61_twice_false :
    let w := (iaddRule strictRs 1 1 start).2
    held w 1 = [1, 1] ∧
      (fit strictRs someY (some RuleProps.someXs) false {} 1 w).1.toOption.map (fun d => d.map fun m => (m.rule.prediction, m.rule.trainSize)) =
        some [(.label (.num .nan), .num .nan), (.label (.num .nan), .num .nan)] ∧
      (view w 1).map (fun s => (RuleSet.fit strictRs someY (some RuleProps.someXs) false {} s).1.toOption.map fun d =>
        d.map fun m => (m.rule.prediction, m.rule.trainSize)) =
        some (some [(.label (.num (.fin (5 / 2))), .num (.fin 4)), (.label (.num (.fin (5 / 2))), .num (.fin 4))]) :=
  ⟨by decide +kernel, by decide +kernel, by decide +kernel⟩

end Verif.SharedRulesProps
