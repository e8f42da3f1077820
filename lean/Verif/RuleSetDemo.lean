import Verif.AddLemmas
import Verif.VoteProps
import Verif.ConditionProps

/-!
# Example data for rulesets
-/

namespace Verif.RuleSetProps

open Verif Vote

/-- Sets are read in the order of first appearance, texts of lists end with a mark. -/
def someRs : RsEnv where
  toSetEnv := VoteProps.someSet .regression
  hasher := ConditionProps.sumHasher
  strings := List.dedup
  strings_perm := fun _ => .refl _
  ints := List.dedup
  ints_perm := fun _ => .refl _
  order := fun l => l
  order_perm := fun _ => .refl _
  union := fun _ _ => .ok ()
  multi := fun _ => .ok ()
  clear := fun _ => .ok ()
  stackedFit := false
  checkDuplicated := false
  allIndexes := []
  strNames := fun o => match o with
    | none => "N"
    | some l => "L" ++ String.join (l.map fun s => toString s.length ++ ":" ++ s) ++ "]"
  strIndexes := fun o => match o with
    | none => "N"
    | some l => "L" ++ String.join (l.map fun i => toString i ++ ",") ++ "]"
  strBounds := fun o => match o with
    | none => "N"
    | some l => "L" ++ String.join (l.map fun x => match x with | .fin q => toString q ++ "," | .nan => "nan," | .inf => "inf," | .ninf => "-inf,") ++ "]"
  strPred := fun o => match o with
    | none => "None"
    | some (.num (.fin q)) => toString q
    | some (.num _) => "nan"
    | some (.text s) => s

/-- A regression rule with this lower bound and this activation -/
def member (lo : Rat) (v : List Nat) : Member := ⟨.regression, VoteProps.voter lo v (.num (.fin 1))⟩

/-- `RuleSet([...], stack_activation=True)` with two rules -/
def twoRules : RuleSet := (RuleSet.init someRs [member 0 [1, 0, 0], member 1 [0, 0, 1]] true (RuleSet.blank true)).2

theorem twoRules_made : RuleSet.make someRs [member 0 [1, 0, 0], member 1 [0, 0, 1]] true true = .ok twoRules := rfl

/-- The same after `+= rule` -/
def threeRules : RuleSet := (RuleSet.iaddRule someRs (member 2 [1, 1, 0]) twoRules).2

theorem threeRules_made : RuleSet.iaddRule someRs (member 2 [1, 1, 0]) twoRules = (.ok (), threeRules) := rfl

theorem member_hasPoints (lo : Rat) (a b c : Bool) :
    Spec.HasPoints 3 (member lo [if a then 1 else 0, if b then 1 else 0, if c then 1 else 0]) :=
  ⟨fun i => if i = 0 then a else if i = 1 then b else c, rfl⟩

theorem threeRules_built : Spec.Built someRs (Spec.HasPoints 3) true threeRules :=
  .iaddRule (.make (by
    intro m hm
    rcases List.mem_cons.1 hm with rfl | hm
    · exact member_hasPoints 0 true false false
    · rw [List.mem_singleton.1 hm]
      exact member_hasPoints 1 false false true) twoRules_made) (member_hasPoints 2 true true false) threeRules_made

end Verif.RuleSetProps
