import Verif.RoundedVote

/-!
# Vocabulary for predictions computed with rounding
-/

namespace Verif.Rounded

/-- The rule is active at point `i`. -/
def Voter.on {α} (v : Voter α) (i : Nat) : Bool := v.act[i]? == some 1

/-- Its weight, 0 if it has none -/
def Voter.wt {α} (v : Voter α) : Rat := v.weight.getD 0

/-- Sum over the rules active at point `i` -/
def overActive {α} (rules : List (Voter α)) (f : Voter α → Rat) (i : Nat) : Rat := ((rules.filter fun v => v.on i).map f).sum

/-- The mean of the predictions of the rules active at point `i`, weighted -/
def weightedMean (rules : List (Voter Rat)) (i : Nat) : Rat :=
  overActive rules (fun v => v.wt * v.pred) i / overActive rules Voter.wt i

/-- The same of the absolute values -/
def weightedSize (rules : List (Voter Rat)) (i : Nat) : Rat :=
  overActive rules (fun v => v.wt * |v.pred|) i / overActive rules Voter.wt i

/-- Total weight of class `k` at point `i` -/
def total (rules : List (Voter Label)) (k : Label) (i : Nat) : Rat :=
  overActive (rules.filter fun v => v.pred = k) Voter.wt i

/-- Rules over `n` points, whose weights are floats which are not negative -/
structure Ballot {α} (A : Machine) (n : Nat) (rules : List (Voter α)) : Prop where
  points : 0 < n
  length : ∀ v ∈ rules, v.act.length = n
  binary : ∀ v ∈ rules, ∀ a ∈ v.act, a = 0 ∨ a = 1
  weight : ∀ v ∈ rules, ∀ w, v.weight = some w → 0 ≤ w ∧ A.fl w = w

end Verif.Rounded
