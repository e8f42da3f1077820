import Verif.FiguresKeptLemmas
import Verif.FailProps

/-!
# C90: the figures of a ruleset after an operation which raised
-/

namespace Verif.FailProps

open Verif Vote Spec RuleSet RuleSetProps FiguresKept

variable {R : RsEnv}

/-- **C90 (figures).** When `fit` or `eval` raises, wherever the error appears, the sizes of the train and test sets and the criterion of the ruleset are as
they were; the same of `calc_criterion`. -/
theorem C90_figures {y : List Label} {xs : Option Xs} {keep : Bool} {w : Option WeightsArg} {force : Bool} {kw : Rule.Kw} {s s' : RuleSet} {e : Err}
    (h : fit R y xs force kw s = (.error e, s') ∨ eval R y xs keep w force kw s = (.error e, s') ∨ calcCriterion R y xs w kw s = (.error e, s')) :
    s'.trainSize = s.trainSize ∧ s'.testSize = s.testSize ∧ s'.criterion = s.criterion := by
  have : figures s' = figures s := by
    rcases h with h | h | h
    · exact onError_fit y xs force kw s e s' h
    · exact onError_eval y xs keep w force kw s e s' h
    · exact onError_calcCriterion y xs w kw s e s' h
  unfold figures at this
  simp only [Prod.mk.injEq] at this
  exact this

/-- The second rule cannot be fitted; weights which are all zero. -/
example : (fit someRs someY (some RuleProps.someXs) false {} farSet).1 = .error .indexError ∧
    (eval someRs someY (some RuleProps.someXs) false (some (.series (VoteProps.someWeights 0 0 0))) false {} withBad).1 = .error .valueError ∧
    (calcCriterion someRs someY (some RuleProps.someXs) (some (.series (VoteProps.someWeights 0 0 0))) {} withBad).1 = .error .valueError := by
  refine ⟨?_, ?_, ?_⟩ <;> decide +kernel

end Verif.FailProps
