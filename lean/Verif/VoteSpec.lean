import Verif.Vote
import Verif.RuleSpec

/-!
# Vocabulary for the predictions of rulesets
-/

namespace Verif.Spec

open Verif Vote

/-- The activation vector of `n` points which is 1 where `on` -/
def vec (n : Nat) (on : Nat → Bool) : List Nat := (List.range n).map fun i => if on i then 1 else 0

/-- Sum of `f` over the rules active at point `i` -/
def activeSum (rules : List Rule) (on : Rule → Nat → Bool) (f : Rule → Rat) (i : Nat) : Rat :=
  ((rules.filter fun r => on r i).map f).sum

/-- Number of rules active at point `i` -/
def activeCount (rules : List Rule) (on : Rule → Nat → Bool) (i : Nat) : Nat := (rules.filter fun r => on r i).length

/-- Fitted regression rules to predict `n` points: rule `r` predicts the number `p r`, and is active at point `i` exactly
when `on r i`. -/
structure Regressors (S : SetEnv) (xs : Option Xs) (rules : List Rule) (n : Nat) (on : Rule → Nat → Bool) (p : Rule → Rat) :
    Prop where
  points : 0 < n
  act : ∀ r ∈ rules, activationOf S.env xs r = .ok (some (vec n (on r)))
  pred : ∀ r ∈ rules, r.getPrediction S.env = .ok (some (.num (.fin (p r))))
  feature : ∀ r ∈ rules, r.length ≠ 0

/-- The Series of weights gives the weight `wt r` to rule `r`; no weight, or NaN, counts as zero. -/
def WeightsAre (S : SetEnv) (w : Weights) (rules : List Rule) (wt : Rule → Rat) : Prop :=
  ∀ r ∈ rules, w (S.condStr r.cond) = some (.fin (wt r)) ∨
    wt r = 0 ∧ (w (S.condStr r.cond) = none ∨ w (S.condStr r.cond) = some .nan)

/-- The rules which have a weight -/
def voters (rules : List Rule) (wt : Rule → Rat) : List Rule := rules.filter fun r => wt r ≠ 0

/-- The first rule contributes zero at some point. -/
def ZeroFirst (rules : List Rule) (on : Rule → Nat → Bool) (f : Rule → Rat) (n : Nat) : Prop :=
  ∃ r rest, rules = r :: rest ∧ f r = 0 ∧ ∃ i < n, on r i = true

/-- Fitted classification rules to predict `n` points: rule `r` predicts the class `c r`, and is active at point `i` exactly
when `on r i`. -/
structure Classifiers (S : SetEnv) (xs : Option Xs) (rules : List Rule) (n : Nat) (on : Rule → Nat → Bool) (c : Rule → Label) :
    Prop where
  points : 0 < n
  act : ∀ r ∈ rules, activationOf S.env xs r = .ok (some (vec n (on r)))
  pred : ∀ r ∈ rules, r.getPrediction S.env = .ok (some (c r))
  isClass : ∀ r ∈ rules, IsClass (c r)

/-- Total weight of the rules active at point `i` which predict class `k` -/
def votes (rules : List Rule) (on : Rule → Nat → Bool) (c : Rule → Label) (wt : Rule → Rat) (k : Label) (i : Nat) : Rat :=
  ((rules.filter fun r => on r i ∧ c r = k).map wt).sum

/-- Class `k` has more votes than every other class. -/
def Wins (rules : List Rule) (on : Rule → Nat → Bool) (c : Rule → Label) (wt : Rule → Rat) (k : Label) (i : Nat) : Prop :=
  0 < votes rules on c wt k i ∧ ∀ k', k' ≠ k → votes rules on c wt k' i < votes rules on c wt k i

/-- `x` is the mean of the predictions of the rules active at point `i`, weighted by `wt`: it lies between two of these
predictions, and is missing where the active rules have no weight. -/
def IsWeightedMean (rules : List Rule) (on : Rule → Nat → Bool) (p wt : Rule → Rat) (i : Nat) (x : Num) : Prop :=
  (activeSum rules on wt i ≠ 0 → ∃ m : Rat, x = .fin m ∧
    m * activeSum rules on wt i = activeSum rules on (fun r => p r * wt r) i ∧
    (∃ r ∈ rules, on r i = true ∧ wt r ≠ 0 ∧ p r ≤ m) ∧ ∃ r ∈ rules, on r i = true ∧ wt r ≠ 0 ∧ m ≤ p r) ∧
  (activeSum rules on wt i = 0 → x = .nan)

/-- `x` is the mean of the predictions of the rules active at point `i`, missing if there is none. -/
def IsMean (rules : List Rule) (on : Rule → Nat → Bool) (p : Rule → Rat) (i : Nat) (x : Num) : Prop :=
  (activeCount rules on i ≠ 0 → ∃ m : Rat, x = .fin m ∧ m * activeCount rules on i = activeSum rules on p i ∧
    (∃ r ∈ rules, on r i = true ∧ p r ≤ m) ∧ ∃ r ∈ rules, on r i = true ∧ m ≤ p r) ∧
  (activeCount rules on i = 0 → x = .nan)

/-- The stacked activations: one column per rule, named after its condition -/
def stackOf (S : SetEnv) (rules : List Rule) (n : Nat) (on : Rule → Nat → Bool) : Columns Nat :=
  rules.map fun r => (S.condStr r.cond, vec n (on r))

/-- No two rules have the same condition text. -/
def DifferentNames (S : SetEnv) (rules : List Rule) : Prop := (rules.map fun r => S.condStr r.cond).Nodup

/-- `l` gives at every point the class which wins there, and is missing where none does. -/
def IsVote (rules : List Rule) (on : Rule → Nat → Bool) (c : Rule → Label) (wt : Rule → Rat) (n : Nat) (l : List Label) : Prop :=
  l.length = n ∧ ∀ i < n, (∀ k, Wins rules on c wt k i → l[i]? = some k) ∧
    ((∀ k, ¬ Wins rules on c wt k i) → l[i]? = some (.num .nan))

end Verif.Spec
