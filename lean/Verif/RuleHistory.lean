import Verif.RuleFit

/-!
# Histories of a rule
-/

namespace Verif.Rule

open Thresholds (Attr)

/-- What a user can do with a rule. -/
inductive Op where
  | fit (y : List Label) (xs : Option Xs) (force : Bool) (kw : Kw)
  | eval (y : List Label) (xs : Option Xs) (recompute force : Bool) (kw : Kw)
  | check (name : String)
  | checkAll
  | calcActivation (xs : Option Xs)
  | calcPrediction (y : List Label)
  | calcSign
  | calcStd (y : List Label)
  | calcZscore (y : List Label) (horizon : Num)
  | calcCriterion (y : List Label) (v : List Nat) (kw : Kw)
  | calcTrainSetSize (y : List Label)
  | calcTestSetSize (y : List Label)
  | setCoverage (value : Attr)

/-- The method called by each operation. -/
def Op.run (E : Env) : Op → Py Rule Unit
  | .fit y xs force kw => Rule.fit E y xs force kw
  | .eval y xs recompute force kw => Rule.eval E y xs recompute force kw
  | .check name => Rule.check E name
  | .checkAll => Rule.checkAll E
  | .calcActivation xs => Rule.calcActivation E xs
  | .calcPrediction y => Rule.calcPrediction E y
  | .calcSign => Rule.calcSign
  | .calcStd y => Rule.calcStd E y
  | .calcZscore y h => Rule.calcZscore E y h
  | .calcCriterion y v kw => Rule.calcCriterion E y v kw
  | .calcTrainSetSize y => Rule.calcTrainSetSize y
  | .calcTestSetSize y => Rule.calcTestSetSize y
  | .setCoverage v => Rule.setCoverage v

/-- The rule after a history.  Every call has its own environment, so that thresholds can change between calls; a call
which raises leaves what it has done so far, and the history goes on. -/
def play (r : Rule) : List (Env × Op) → Rule
  | [] => r
  | (E, op) :: ops => play (op.run E r).2 ops

theorem keeps_run (E : Env) (op : Op) : Keeps (op.run E) := by
  cases op with
  | fit y xs force kw => exact keeps_fit _ _ _ _ _
  | eval y xs rc force kw => exact keeps_eval _ _ _ _ _ _
  | check name => exact keeps_check _ _
  | checkAll => exact keeps_checkAll _
  | calcActivation xs => exact keeps_calcActivation _ _
  | calcPrediction y => exact keeps_calcPrediction _ _
  | calcSign => exact keeps_calcSign
  | calcStd y => exact keeps_calcStd _ _
  | calcZscore y h => exact keeps_calcZscore _ _ _
  | calcCriterion y v kw => exact keeps_calcCriterion _ _ _ _
  | calcTrainSetSize y => exact keeps_modify fun _ => ⟨rfl, rfl, rfl⟩
  | calcTestSetSize y => exact keeps_modify fun _ => ⟨rfl, rfl, rfl⟩
  | setCoverage v => exact keeps_modify fun _ => ⟨rfl, rfl, rfl⟩

theorem play_after (r : Rule) (ops : List (Env × Op)) : ∃ l, After l r (play r ops) := by
  induction ops generalizing r with
  | nil => exact ⟨[], After.refl r⟩
  | cons p ops ih =>
    obtain ⟨l, hl⟩ := keeps_run p.1 p.2 r
    obtain ⟨l', hl'⟩ := ih (p.2.run p.1 r).2
    exact ⟨_, hl.trans hl'⟩

/-- The rule as `__init__` fills it before the first check. -/
def blank (cond : Cond) (act : Option (List Nat)) : Rule :=
  { cond, act, actCoverage := none, coverage := .none, good := true, badBecause := none, prediction := .none,
    std := .none, sign := .none, zscore := .none, criterion := .none, trainSize := .none, testSize := .none,
    fitted := false, evaluated := false, log := [] }

theorem make_after (E : Env) (cond : Cond) (act : Option (List Nat)) :
    ∃ l, After l (blank cond act) (make E cond act).2 := by
  unfold make
  split
  · exact keeps_check E "coverage" _
  · exact ⟨[], After.refl _⟩

end Verif.Rule
