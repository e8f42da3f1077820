import Verif.StackLemmas
import Verif.PredictLemmas

/-! Lemmas on stacked predictions of rulesets some of whose rules have no prediction. -/

namespace Verif.Vote

open Spec

/-- The number a rule without prediction stands for -/
def numberOr (q : Option Rat) : Num :=
  match q with
  | some x => .fin x
  | none => .nan

theorem labelsOf_some {S : SetEnv} {rules : List Rule} (hn : (rules.map fun r => S.condStr r.cond).Nodup) {q : Rule → Option Rat}
    (hp : ∀ r ∈ rules, r.getPrediction S.env = .ok ((q r).map fun x => .num (.fin x))) :
    labelsOf S rules = .ok (rules.map fun r => (S.condStr r.cond, Label.num (numberOr (q r)))) := by
  unfold labelsOf
  rw [mapM_ok (g := fun r => (S.condStr r.cond, Label.num (numberOr (q r)))) fun r hr => by
    rw [hp r hr]; cases q r <;> rfl]
  simp only [Except.map]
  rw [dictOf_nodup (by simpa [List.map_map, Function.comp_def] using hn)]

/-- The rules without prediction leave no trace in the mean -/
theorem nanmean_some (l : List Rule) (on : Rule → Nat → Bool) (q : Rule → Option Rat) (i : Nat) :
    Num.nanmean (l.map fun r => if on r i then numberOr (q r) else .nan) =
      Num.nanmean ((l.filter fun r => (q r).isSome).map fun r => if on r i then Num.fin ((q r).getD 0) else .nan) := by
  unfold Num.nanmean
  congr 1
  induction l with
  | nil => rfl
  | cons r l ih =>
    unfold Num.dropna at ih ⊢
    cases h : q r with
    | none =>
      rw [List.filter_cons_of_neg (p := fun r => (q r).isSome) (by simp [h]), List.map_cons, h]
      cases on r i <;> simpa [numberOr, Num.isNaN] using ih
    | some x =>
      rw [List.filter_cons_of_pos (p := fun r => (q r).isSome) (by simp [h]), List.map_cons, List.map_cons, h]
      cases on r i <;> simpa [numberOr, Num.isNaN] using ih

theorem cellNum_numberOr (n : Nat) (on : Nat → Bool) (q : Option Rat) :
    (vec n on).map (cellNum (numberOr q)) = (List.range n).map fun i => if on i then numberOr q else .nan := by
  cases q with
  | some x => exact cellNum_vec n on x
  | none =>
    unfold vec
    rw [List.map_map]
    refine List.map_congr_left fun i _ => ?_
    cases h : on i <;> simp [h, cellNum, Num.mul, numberOr]

/-- The stacked unweighted prediction of rules some of which have no prediction -/
theorem predictStacked_some {S : SetEnv} {rules : List Rule} {q : Rule → Option Rat} {n : Nat}
    {on : Rule → Nat → Bool} (hk : S.env.kind = .regression) (hpos : 0 < n) (hne : rules ≠ [])
    (hp : ∀ r ∈ rules, r.getPrediction S.env = .ok ((q r).map fun x => .num (.fin x)))
    (hn : (rules.map fun r => S.condStr r.cond).Nodup) :
    predictStacked S rules (rules.map fun r => (S.condStr r.cond, vec n (on r))) none =
      .ok (cellsOf (table n fun i => Num.div (.fin (activeSum (rules.filter fun r => (q r).isSome) on (fun r => (q r).getD 0) i))
        (.fin (activeCount (rules.filter fun r => (q r).isSome) on i)))) := by
  unfold predictStacked
  rw [labelsOf_some hn hp]
  simp only [bind, Except.bind]
  rw [height_map rules hne, if_neg (by omega), hk]
  simp only
  rw [onlyNumbers_map]
  simp only
  rw [predictionVectors_map hn]
  simp only [cellNum_numberOr]
  unfold equalRegressorStacked
  rw [rowsOf_map, List.map_map]
  refine congrArg (fun l => Except.ok (cellsOf l)) (List.map_congr_left fun i _ => ?_)
  exact (nanmean_some rules on q i).trans (nanmean_active _ on _ i)

end Verif.Vote
