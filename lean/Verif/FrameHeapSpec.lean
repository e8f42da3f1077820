import Verif.FrameHeap

/-!
# Vocabulary for stacked activations as objects
-/

namespace Verif.Spec

open Verif

/-- A call, in terms of rulesets as values: which ruleset it is about, and what this ruleset becomes.  There are `n` rulesets. -/
def asked (R : RsEnv) (n : Nat) (v : Nat → Option RuleSet) : FrameHeap.Op → Option (Nat × RuleSet)
  | .create s => some (n, s)
  | .iaddRule i m => (v i).map fun s => (i, (RuleSet.iaddRule R m s).2)
  | .append i m u => (v i).map fun s => (i, (RuleSet.append R m u s).2)
  | .iaddSet i j => (v i).bind fun s => (v j).map fun o => (i, (RuleSet.iaddSet R o s).2)
  | .change i f => (v i).map fun s => (i, f s)

/-- One ruleset changes, and no other. -/
def onlyOne (v : Nat → Option RuleSet) : Option (Nat × RuleSet) → Nat → Option RuleSet
  | none, i => v i
  | some (k, s), i => if i = k then some s else v i

/-- The call adds a ruleset with an activation and stacked activations to one which stacks activations and has none. -/
def Joins (v : Nat → Option RuleSet) : FrameHeap.Op → Prop
  | .iaddSet i j => ∃ s o, v i = some s ∧ v j = some o ∧ s.stacked = none ∧ s.stack = true ∧ o.stacked ≠ none ∧ o.available ≠ none
  | _ => False

/-- What can be reached by calls; `A` says which are allowed. -/
inductive Reached (R : RsEnv) (A : FrameHeap.World → FrameHeap.Op → Prop) : FrameHeap.World → Prop where
  | start : Reached R A ⟨[], []⟩
  | step {w} (op : FrameHeap.Op) : Reached R A w → A w op → Reached R A (FrameHeap.step R w op)

end Verif.Spec
