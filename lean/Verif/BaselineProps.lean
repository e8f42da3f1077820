import Verif.BaselineLemmas

/-!
# Measures relative to a baseline
-/

namespace Verif.FigureProps

open Verif Rule Spec RFun RuleStatProps Baseline MeasureProps

/-- **C33 (mse_norm, baseline).** For targets which are not all the same, a constant prediction never has an `mse_norm` below 1, and
only the mean target has 1. -/
theorem C33_mse_norm_baseline {y : List Rat} {a b : Rat} (ha : a ∈ y) (hb : b ∈ y) (hab : a ≠ b) (c : Rat) :
    ∃ q : Rat, mseNorm (List.replicate y.length (.fin c)) (y.map .fin) = .ok (.fin q) ∧ 1 ≤ q ∧ (q = 1 ↔ c = meanOf y) := by
  have hne : y ≠ [] := List.ne_nil_of_mem ha
  have hpos : (0 : Rat) < y.length := by
    have := List.length_pos_iff.2 hne
    exact_mod_cast this
  obtain ⟨x, z, h1, h2, h3⟩ := MeasureProps.C33_mse_norm_partial (pred := List.replicate y.length (some c)) (y := y) (by simp) hne
  have e1 := mse_spec (pred := List.replicate y.length (some c)) (y := y.map some) (by simp)
  have e2 := mse_spec (pred := List.replicate y.length (some (meanOf y))) (y := y.map some) (by simp)
  rw [map_some_ofOption, both_const, if_neg (by simpa using hne)] at e1 e2
  rw [h1] at e1
  rw [h2] at e2
  cases e1
  cases e2
  have hm := squares_pos ha hb hab (meanOf y)
  have hd := squares_mean c hne
  have em : ∀ d : Rat, meanOf ((y.map fun t => (d, t)).map fun x => (x.1 - x.2) ^ 2) = (y.map fun t => (d - t) ^ 2).sum / y.length := by
    intro d
    simp only [meanOf, List.map_map, List.length_map]
    rfl
  rw [List.map_replicate] at h3
  rw [em, em] at h3
  have hz : (y.map fun t => (meanOf y - t) ^ 2).sum / (y.length : Rat) ≠ 0 := (div_pos hm hpos).ne'
  refine ⟨_, h3.trans (by rw [Num.div, if_neg hz]), ?_, ?_⟩
  · rw [le_div_iff₀ (div_pos hm hpos), one_mul, div_le_div_iff_of_pos_right hpos, hd]
    have : 0 ≤ (y.length : Rat) * (c - meanOf y) ^ 2 := by positivity
    linarith
  · rw [div_eq_iff hz, one_mul, div_left_inj' hpos.ne', hd, add_eq_left, mul_eq_zero, or_iff_right hpos.ne', sq_eq_zero_iff,
      sub_eq_zero]

/-- **C33 (aae, baseline).** For targets which are not all the same, a constant prediction never has an `aae` below 1, and the median
target has 1. -/
theorem C33_aae_baseline {y : List Rat} {a b : Rat} (ha : a ∈ y) (hb : b ∈ y) (hab : a ≠ b) (c : Rat) :
    ∃ q : Rat, aae (List.replicate y.length (.fin c)) (y.map .fin) = .ok (.fin q) ∧ 1 ≤ q ∧
      (median (y.map .fin) = .fin c → q = 1) := by
  have hne : y ≠ [] := List.ne_nil_of_mem ha
  have hpos : (0 : Rat) < y.length := by
    have := List.length_pos_iff.2 hne
    exact_mod_cast this
  obtain ⟨m, hmed, hbest⟩ := median_best hne
  obtain ⟨x, z, h1, h2, h3⟩ := MeasureProps.C33_aae_partial (pred := List.replicate y.length (some c)) (y := y) (by simp) hne hmed
  have e1 := mae_spec (pred := List.replicate y.length (some c)) (y := y.map some) (by simp)
  have e2 := mae_spec (pred := List.replicate y.length (some m)) (y := y.map some) (by simp)
  rw [map_some_ofOption, both_const, if_neg (by simpa using hne)] at e1 e2
  rw [h1] at e1
  rw [h2] at e2
  cases e1
  cases e2
  have hm := distances_pos ha hb hab m
  have em : ∀ d : Rat, meanOf ((y.map fun t => (d, t)).map fun x => |x.1 - x.2|) = (y.map fun t => |d - t|).sum / y.length := by
    intro d
    simp only [meanOf, List.map_map, List.length_map]
    rfl
  rw [List.map_replicate] at h3
  rw [em, em] at h3
  have hz : (y.map fun t => |m - t|).sum / (y.length : Rat) ≠ 0 := (div_pos hm hpos).ne'
  refine ⟨_, h3.trans (by rw [Num.div, if_neg hz]), ?_, ?_⟩
  · rw [le_div_iff₀ (div_pos hm hpos), one_mul, div_le_div_iff_of_pos_right hpos]
    exact hbest c
  · intro h
    rw [hmed] at h
    cases h
    exact div_self hz

example : (1 : Rat) ∈ [1, 2, 6] ∧ (2 : Rat) ∈ [1, 2, 6] ∧ (1 : Rat) ≠ 2 ∧
    mseNorm (List.replicate 3 (.fin 3)) ([1, 2, 6].map .fin) = .ok (.fin 1) ∧
    mseNorm (List.replicate 3 (.fin 2)) ([1, 2, 6].map .fin) = .ok (.fin (17 / 14)) ∧
    aae (List.replicate 3 (.fin 2)) ([1, 2, 6].map .fin) = .ok (.fin 1) ∧
    aae (List.replicate 3 (.fin 3)) ([1, 2, 6].map .fin) = .ok (.fin (6 / 5)) := by decide +kernel

/-- **C33 (infinite predictions).** One infinite prediction makes the four measures infinite, whatever the other predictions (missing
or infinite ones among them); there is no NaN and no negative measure. -/
theorem C33_infinite {pred : List Num} {y : List Rat} (hl : pred.length = y.length) (h : ∃ p ∈ pred, p = .inf ∨ p = .ninf) :
    mse pred (y.map .fin) = .ok .inf ∧ mae pred (y.map .fin) = .ok .inf ∧ mseNorm pred (y.map .fin) = .ok .inf ∧
      aae pred (y.map .fin) = .ok .inf := by
  have hne : y ≠ [] := by
    rintro rfl
    obtain ⟨p, hp, _⟩ := h
    rw [List.eq_nil_of_length_eq_zero hl] at hp
    cases hp
  have hd : ∀ q : Rat, 0 ≤ q → Num.div .inf (.fin q) = .inf := fun q hq => by simp [Num.div, not_lt.2 hq]
  refine ⟨mse_infinite hl h, mae_infinite hl h, ?_, ?_⟩
  · simp only [mseNorm, mse_infinite hl h, bind, Except.bind]
    rw [mean_fin hne]
    have e : (y.map Num.fin).map (fun t => square (Num.sub (.fin (meanOf y)) t)) = (y.map fun t => (meanOf y - t) ^ 2).map Num.fin := by
      simp only [List.map_map]
      apply List.map_congr_left
      intro t _
      simp [square, Num.sub, Num.add, Num.neg, Num.mul, sq, sub_eq_add_neg]
    rw [e, mean_fin (by simpa using hne), hd]
    apply meanOf_nonneg
    intro x hx
    obtain ⟨_, _, rfl⟩ := List.mem_map.1 hx
    positivity
  · obtain ⟨m, hmed, -⟩ := median_best hne
    simp only [aae, mae_infinite hl h, bind, Except.bind, hmed]
    have e : (y.map Num.fin).map (fun t => Num.abs (Num.sub t (.fin m))) = (y.map fun t => |t - m|).map Num.fin := by
      simp only [List.map_map]
      apply List.map_congr_left
      intro t _
      simp [Num.sub, Num.add, Num.neg, Num.abs, sub_eq_add_neg]
    rw [e, mean_fin (by simpa using hne), hd]
    apply meanOf_nonneg
    intro x hx
    obtain ⟨_, _, rfl⟩ := List.mem_map.1 hx
    positivity

example : ∃ p ∈ [Num.nan, .ninf, .inf, .fin 2], p = .inf ∨ p = .ninf := ⟨.ninf, by simp, .inr rfl⟩

end Verif.FigureProps
