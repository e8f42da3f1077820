import Verif.UnitSpec
import Verif.PredictProps

/-!
# Lemmas for `UnitSetProps.lean`
-/

namespace Verif.Units

open Verif Rule Spec Vote RuleSet RuleSetProps VoteProps

/-- Two rulesets with the same rules, in the two units: `f r` is active where `r` is, and predicts the same in the other unit. -/
structure SameRules (a b : Rat) (l l' : List Rule) (f : Rule → Rule) (on on' : Rule → Nat → Bool) (p p' : Rule → Rat) : Prop where
  rules : l' = l.map f
  on : ∀ r ∈ l, on' (f r) = on r
  pred : ∀ r ∈ l, p' (f r) = a * p r + b

theorem SameRules.sum {a b : Rat} {l l' : List Rule} {f : Rule → Rule} {on on' : Rule → Nat → Bool} {p p' : Rule → Rat}
    (h : SameRules a b l l' f on on' p p') (g : Rule → Rat) (i : Nat) : activeSum l' on' g i = activeSum l on (fun r => g (f r)) i := by
  rw [h.rules, activeSum, activeSum, List.filter_map, List.map_map]
  have : (l.filter ((fun r => on' r i) ∘ f)) = l.filter fun r => on r i :=
    List.filter_congr fun r hr => by simp only [Function.comp, h.on r hr]
  rw [this]
  rfl

theorem SameRules.count {a b : Rat} {l l' : List Rule} {f : Rule → Rule} {on on' : Rule → Nat → Bool} {p p' : Rule → Rat}
    (h : SameRules a b l l' f on on' p p') (i : Nat) : activeCount l' on' i = activeCount l on i := by
  rw [h.rules, activeCount, activeCount, List.filter_map, List.length_map]
  congr 1
  exact List.filter_congr fun r hr => by simp only [Function.comp, h.on r hr]

theorem activeSum_congr {l : List Rule} {on : Rule → Nat → Bool} {g g' : Rule → Rat} (h : ∀ r ∈ l, g r = g' r) (i : Nat) :
    activeSum l on g i = activeSum l on g' i := by
  rw [activeSum, activeSum]
  congr 1
  exact List.map_congr_left fun r hr => h r (List.mem_filter.1 hr).1

theorem activeSum_affine (l : List Rule) (on : Rule → Nat → Bool) (g h : Rule → Rat) (a b : Rat) (i : Nat) :
    activeSum l on (fun r => a * g r + b * h r) i = a * activeSum l on g i + b * activeSum l on h i := by
  simp only [activeSum]
  induction l.filter fun r => on r i with
  | nil => simp
  | cons r l ih => simp only [List.map_cons, List.sum_cons, ih]; ring

/-- The weighted mean in the other unit; the weights may have another unit, too. -/
theorem weightedMean_convert {a b c : Rat} {l l' : List Rule} {f : Rule → Rule} {on on' : Rule → Nat → Bool} {p p' wt wt' : Rule → Rat}
    (h : SameRules a b l l' f on on' p p') (hc : 0 < c) (hw : ∀ r ∈ l, wt' (f r) = c * wt r) {i : Nat} {x x' : Num}
    (hx : IsWeightedMean l on p wt i x) (hx' : IsWeightedMean l' on' p' wt' i x') :
    ∃ q : Option Rat, x = Num.ofOption q ∧ x' = Num.ofOption (convert a b q) := by
  have e1 : activeSum l' on' wt' i = c * activeSum l on wt i := by
    rw [h.sum, activeSum_congr (g' := fun r => c * wt r + 0 * wt r) (fun r hr => by rw [hw r hr]; ring), activeSum_affine]
    ring
  have e2 : activeSum l' on' (fun r => p' r * wt' r) i = c * (a * activeSum l on (fun r => p r * wt r) i + b * activeSum l on wt i) := by
    rw [h.sum, activeSum_congr (g' := fun r => (c * a) * (p r * wt r) + (c * b) * wt r)
      (fun r hr => by rw [hw r hr, h.pred r hr]; ring), activeSum_affine]
    ring
  by_cases h0 : activeSum l on wt i = 0
  · exact ⟨none, hx.2 h0, hx'.2 (by rw [e1, h0, mul_zero])⟩
  · obtain ⟨m, rfl, hm, -⟩ := hx.1 h0
    obtain ⟨m', rfl, hm', -⟩ := hx'.1 (by rw [e1]; exact mul_ne_zero hc.ne' h0)
    refine ⟨some m, rfl, ?_⟩
    rw [e1, e2, ← hm] at hm'
    have : m' * (c * activeSum l on wt i) = (a * m + b) * (c * activeSum l on wt i) := by rw [hm']; ring
    simp only [convert, Option.map, Num.ofOption, mul_right_cancel₀ (mul_ne_zero hc.ne' h0) this]

theorem mean_convert {a b : Rat} {l l' : List Rule} {f : Rule → Rule} {on on' : Rule → Nat → Bool} {p p' : Rule → Rat}
    (h : SameRules a b l l' f on on' p p') {i : Nat} {x x' : Num} (hx : IsMean l on p i x) (hx' : IsMean l' on' p' i x') :
    ∃ q : Option Rat, x = Num.ofOption q ∧ x' = Num.ofOption (convert a b q) := by
  have e2 : activeSum l' on' p' i = a * activeSum l on p i + b * activeCount l on i := by
    rw [h.sum, activeSum_congr (g' := fun r => a * p r + b * 1) (fun r hr => by rw [h.pred r hr]; ring), activeSum_affine]
    congr 2
    simp [activeSum, activeCount]
  by_cases h0 : activeCount l on i = 0
  · exact ⟨none, hx.2 h0, hx'.2 (by rw [h.count, h0])⟩
  · obtain ⟨m, rfl, hm, -⟩ := hx.1 h0
    obtain ⟨m', rfl, hm', -⟩ := hx'.1 (by rw [h.count]; exact h0)
    refine ⟨some m, rfl, ?_⟩
    rw [h.count, e2, ← hm] at hm'
    have h0' : (activeCount l on i : Rat) ≠ 0 := by exact_mod_cast h0
    have : m' * (activeCount l on i : Rat) = (a * m + b) * activeCount l on i := by rw [hm']; ring
    simp only [convert, Option.map, Num.ofOption, mul_right_cancel₀ h0' this]

/-- From the points to the vectors -/
theorem pointwise {a b : Rat} {n : Nat} {l l' : List Num} {P P' : Nat → Num → Prop} (h : l.length = n) (h' : l'.length = n)
    (hx : ∀ i < n, ∃ x, l[i]? = some x ∧ P i x) (hx' : ∀ i < n, ∃ x, l'[i]? = some x ∧ P' i x)
    (hc : ∀ i x x', P i x → P' i x' → ∃ q : Option Rat, x = Num.ofOption q ∧ x' = Num.ofOption (convert a b q)) :
    ∃ k : List (Option Rat), l = k.map Num.ofOption ∧ l' = (k.map (convert a b)).map Num.ofOption := by
  induction n generalizing l l' P P' with
  | zero =>
    exact ⟨[], by simpa using List.length_eq_zero_iff.1 h, by simpa using List.length_eq_zero_iff.1 h'⟩
  | succ n ih =>
    cases l with
    | nil => cases h
    | cons x l =>
      cases l' with
      | nil => cases h'
      | cons x' l' =>
        obtain ⟨_, ⟨⟩, p0⟩ := hx 0 (by omega)
        obtain ⟨_, ⟨⟩, p0'⟩ := hx' 0 (by omega)
        obtain ⟨q, rfl, rfl⟩ := hc 0 _ _ p0 p0'
        obtain ⟨k, rfl, rfl⟩ := ih (l := l) (l' := l') (P := fun i => P (i + 1)) (P' := fun i => P' (i + 1)) (by simpa using h)
          (by simpa using h') (fun i hi => hx (i + 1) (by omega)) (fun i hi => hx' (i + 1) (by omega)) fun i => hc (i + 1)
        exact ⟨q :: k, rfl, rfl⟩

/-- Predictions, in the way `predict` gives them -/
def answers (k : List (Option Rat)) : List Cell := k.map fun x => .label (.num (Num.ofOption x))

theorem answers_eq (k : List (Option Rat)) : ((k.map Num.ofOption).map fun x => Cell.label (.num x)) = answers k := by
  rw [List.map_map]
  rfl

end Verif.Units
