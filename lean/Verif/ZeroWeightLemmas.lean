import Verif.EqualWeightLemmas
import Verif.StackLemmas

/-!
# Lemmas on rules of weight 0 with stacked activations
-/

namespace Verif.WeightRatio

open Verif Verif.Spec Vote

variable {α : Type}

theorem cellWeight_light {w : Weights} {n : String} (h : weighty w n = false) (a : Nat) : (cellWeight w n a).isNaN = true := by
  unfold weighty at h
  unfold cellWeight
  cases hw : w n with
  | none => rfl
  | some x =>
    rw [hw] at h
    by_cases ha : a = 0
    · simp [ha, Num.isNaN]
    · have hx : x = .fin 0 ∨ x = .nan := by
        by_contra hc
        simp only [decide_eq_false_iff_not] at h
        exact h ⟨fun e => hc (.inl e), fun e => hc (.inr e)⟩
      rcases hx with rfl | rfl
      · have e : Num.mul (.fin a) (.fin 0) = .fin 0 := by simp [Num.mul]
        simp only [e]
        have : Num.beq (.fin 0) (.fin 0) = true := by decide +kernel
        simp [ha, this, Num.isNaN]
      · simp only [ha, if_false]
        split <;> rfl

/-- What becomes of the column of one rule -/
def weighed (S : SetEnv) (isNaN : α → Bool) (cell : α → Nat → α) (act : Rule → List Nat) (lab : Rule → α) (w : Weights) (r : Rule) :
    Option (String × List (α × Num)) :=
  if ((act r).map (cellWeight w (S.condStr r.cond))).all Num.isNaN then none
  else some (S.condStr r.cond, List.zipWith (fun q x => (q, if isNaN q then Num.nan else x)) ((act r).map (cell (lab r)))
    ((act r).map (cellWeight w (S.condStr r.cond))))

theorem weighed_all {S : SetEnv} {isNaN : α → Bool} {cell : α → Nat → α} {act : Rule → List Nat} {lab : Rule → α} {w : Weights}
    {rules : List Rule} (hd : DifferentNames S rules) :
    (rules.map fun r => (S.condStr r.cond, act r)).filterMap (weighColumn isNaN
      (predictionVectors cell (rules.map fun r => (S.condStr r.cond, act r)) (rules.map fun r => (S.condStr r.cond, lab r))) w) =
    rules.filterMap (weighed S isNaN cell act lab w) := by
  rw [predictionVectors_map hd cell act lab, List.filterMap_map]
  refine List.filterMap_congr fun r hr => ?_
  simp only [Function.comp_apply]
  unfold weighColumn weighed
  rw [lookup_map hd (fun r => (act r).map (cell (lab r))) hr]

theorem weighed_light {S : SetEnv} {isNaN : α → Bool} {cell : α → Nat → α} {act : Rule → List Nat} {lab : Rule → α} {w : Weights}
    (rules : List Rule) :
    rules.filterMap (weighed S isNaN cell act lab w) =
      (rules.filter fun r => weighty w (S.condStr r.cond)).filterMap (weighed S isNaN cell act lab w) := by
  induction rules with
  | nil => rfl
  | cons r t ih =>
    rw [List.filterMap_cons]
    by_cases h : weighty w (S.condStr r.cond) = true
    · rw [List.filter_cons_of_pos (p := fun r : Rule => weighty w (S.condStr r.cond)) h, List.filterMap_cons, ih]
    · have h0 : weighed S isNaN cell act lab w r = none := by
        unfold weighed
        rw [if_pos]
        rw [List.all_map, List.all_eq_true]
        intro a _
        exact cellWeight_light (by simpa using h) a
      rw [List.filter_cons_of_neg (p := fun r : Rule => weighty w (S.condStr r.cond)) h, h0, ih]

theorem initWeights_light {S : SetEnv} {isNaN : α → Bool} {cell : α → Nat → α} {act : Rule → List Nat} {lab : Rule → α} {w : Weights}
    {rules rules' : List Rule} (hd : DifferentNames S rules) (hr : rules' = rules.filter fun r => weighty w (S.condStr r.cond)) :
    initWeights isNaN (rules.map fun r => (S.condStr r.cond, act r))
      (predictionVectors cell (rules.map fun r => (S.condStr r.cond, act r)) (rules.map fun r => (S.condStr r.cond, lab r))) w =
    initWeights isNaN (rules'.map fun r => (S.condStr r.cond, act r))
      (predictionVectors cell (rules'.map fun r => (S.condStr r.cond, act r)) (rules'.map fun r => (S.condStr r.cond, lab r))) w := by
  have hd' : DifferentNames S rules' := by
    rw [hr]
    exact List.Nodup.sublist (List.Sublist.map _ List.filter_sublist) hd
  unfold initWeights
  simp only [weighed_all hd, weighed_all hd']
  rw [weighed_light rules, ← hr]

theorem predictStacked_light {S : SetEnv} {n : Nat} {on : Rule → Nat → Bool} {lab : Rule → Label} {w : Weights}
    {rules rules' : List Rule} (hd : DifferentNames S rules) (hr : rules' = rules.filter fun r => weighty w (S.condStr r.cond))
    (hne : rules' ≠ []) (hp : ∀ r ∈ rules, r.getPrediction S.env = .ok (some (lab r)))
    (ht : (∀ r ∈ rules, ∃ x, lab r = .num x) ∨ (S.env.kind = .classification ∧ ∀ r ∈ rules, ∃ t, lab r = .text t)) :
    predictStacked S rules (stackOf S rules n on) (some w) = predictStacked S rules' (stackOf S rules' n on) (some w) := by
  have hsub : ∀ r ∈ rules', r ∈ rules := by
    intro r h
    rw [hr] at h
    exact List.mem_of_mem_filter h
  have hd' : DifferentNames S rules' := by
    rw [hr]
    exact List.Nodup.sublist (List.Sublist.map _ List.filter_sublist) hd
  have hh : ∀ l : List Rule, l ≠ [] → height (stackOf S l n on) = n := by
    intro l hl
    cases l with
    | nil => exact absurd rfl hl
    | cons r t => simp [stackOf, height, vec]
  have hne0 : rules ≠ [] := by
    rintro rfl
    cases rules' with
    | nil => exact hne rfl
    | cons r t => cases hsub r (by simp)
  have one : ∀ l : List Rule, (∀ r ∈ l, r ∈ rules) → oneType (l.map fun r => (S.condStr r.cond, lab r)) = true := by
    intro l hl
    unfold oneType
    rcases ht with ht | ⟨-, ht⟩
    · rw [Bool.or_eq_true]; left
      rw [List.all_map, List.all_eq_true]
      intro r h
      obtain ⟨x, e⟩ := ht r (hl r h)
      simp [e]
    · rw [Bool.or_eq_true]; right
      rw [List.all_map, List.all_eq_true]
      intro r h
      obtain ⟨x, e⟩ := ht r (hl r h)
      simp [e]
  unfold predictStacked
  rw [labelsOf_eq hd hp, labelsOf_eq hd' fun r h => hp r (hsub r h), hh _ hne0, hh _ hne]
  simp only [bind, Except.bind]
  by_cases h0 : n = 0
  · simp [h0]
  · simp only [h0, if_false]
    cases hk : S.env.kind with
    | regression =>
      have ht' : ∀ r ∈ rules, ∃ x, lab r = .num x := by
        rcases ht with ht | ⟨h, -⟩
        · exact ht
        · rw [hk] at h; cases h
      have num : ∀ l : List Rule, (∀ r ∈ l, r ∈ rules) → onlyNumbers (l.map fun r => (S.condStr r.cond, lab r)) =
          .ok (l.map fun r => (S.condStr r.cond, (match lab r with | .num x => x | .text _ => .nan))) := by
        intro l hl
        unfold onlyNumbers
        induction l with
        | nil => rfl
        | cons r t ih =>
          obtain ⟨x, e⟩ := ht' r (hl r (by simp))
          rw [List.map_cons, List.mapM_cons, ih fun r h => hl r (by simp [h])]
          rw [List.map_cons]
          simp only [e]
          rfl
      simp only [num rules (fun _ h => h), num rules' hsub]
      unfold weightedRegressorStacked
      unfold stackOf
      rw [initWeights_light (cell := cellNum) hd hr]
    | classification =>
      simp only [one rules (fun _ h => h), one rules' hsub]
      unfold weightedClassifierStacked stackOf
      rw [initWeights_light (cell := cellLabel) hd hr]

end Verif.WeightRatio
