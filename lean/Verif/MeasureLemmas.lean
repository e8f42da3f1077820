import Verif.RuleEval
import Verif.RuleStatProps

/-!
# Lemmas for `MeasureProps.lean`
-/

namespace Verif.MeasureProps

open Verif Rule Spec RFun RuleStatProps

/-- Measures of errors written with `f` are the mean of `f (p - t)` where both exist. -/
theorem measure_spec (f : Num → Num) (g : Rat → Rat) (hf : ∀ q, f (.fin q) = .fin (g q)) (hn : f .nan = .nan)
    (pred y : List (Option Rat)) :
    Num.nanmean ((List.zipWith Num.sub (pred.map Num.ofOption) (y.map Num.ofOption)).map f) =
      if both pred y = [] then .nan else .fin (meanOf ((both pred y).map fun x => g (x.1 - x.2))) := by
  have key : Num.dropna ((List.zipWith Num.sub (pred.map Num.ofOption) (y.map Num.ofOption)).map f) =
      ((both pred y).map fun x => g (x.1 - x.2)).map .fin := by
    induction pred generalizing y with
    | nil => rfl
    | cons p pred ih =>
      cases y with
      | nil => rfl
      | cons t y =>
        have := ih y
        simp only [Num.dropna, both, List.map_cons, List.zipWith_cons_cons, List.zip_cons_cons] at this ⊢
        cases p with
        | none =>
          rw [List.filter_cons_of_neg (by simp [Num.ofOption, Num.sub, Num.add, hn, Num.isNaN]), this]
          rfl
        | some p =>
          cases t with
          | none =>
            rw [List.filter_cons_of_neg (by simp [Num.ofOption, Num.sub, Num.add, Num.neg, hn, Num.isNaN]), this]
            rfl
          | some t =>
            rw [List.filter_cons_of_pos (by simp [Num.ofOption, Num.sub, Num.add, Num.neg, hf, Num.isNaN]), this]
            simp [Num.ofOption, Num.sub, Num.add, Num.neg, hf, sub_eq_add_neg]
  rw [Num.nanmean, key]
  split
  · next h => rw [h]; rfl
  · next h => exact mean_fin (by simpa using h)

theorem errors_ok {pred y : List (Option Rat)} (h : pred.length = y.length) :
    errors (pred.map Num.ofOption) (y.map Num.ofOption) =
      .ok (List.zipWith Num.sub (pred.map Num.ofOption) (y.map Num.ofOption)) := by
  simp [errors, h]

theorem mse_spec {pred y : List (Option Rat)} (h : pred.length = y.length) :
    mse (pred.map Num.ofOption) (y.map Num.ofOption) =
      .ok (if both pred y = [] then .nan else .fin (meanOf ((both pred y).map fun x => (x.1 - x.2) ^ 2))) := by
  simp only [mse, errors_ok h, bind, Except.bind]
  rw [measure_spec square (fun q => q ^ 2) (fun q => by simp [square, Num.mul, sq]) rfl]

theorem mae_spec {pred y : List (Option Rat)} (h : pred.length = y.length) :
    mae (pred.map Num.ofOption) (y.map Num.ofOption) =
      .ok (if both pred y = [] then .nan else .fin (meanOf ((both pred y).map fun x => |x.1 - x.2|))) := by
  simp only [mae, errors_ok h, bind, Except.bind]
  rw [measure_spec Num.abs (fun q => |q|) (fun q => rfl) rfl]

theorem meanOf_nonneg {l : List Rat} (h : ∀ x ∈ l, 0 ≤ x) : 0 ≤ meanOf l :=
  div_nonneg (sum_nonneg' h) (by positivity)

theorem meanOf_eq_zero {l : List Rat} (hne : l ≠ []) (h : ∀ x ∈ l, 0 ≤ x) : meanOf l = 0 ↔ ∀ x ∈ l, x = 0 := by
  have hpos : (l.length : Rat) ≠ 0 := by simpa using hne
  rw [meanOf, div_eq_zero_iff, or_iff_left hpos]
  constructor
  · exact sum_eq_zero h
  · intro hz
    exact List.sum_eq_zero hz

/-- Predictions and targets without missing values, for a constant prediction. -/
theorem both_const (m : Rat) (y : List Rat) : both (List.replicate y.length (some m)) (y.map some) = y.map fun t => (m, t) := by
  induction y with
  | nil => rfl
  | cons t y ih =>
    simp only [both, List.length_cons, List.replicate_succ, List.map_cons, List.zip_cons_cons] at ih ⊢
    rw [List.filterMap_cons, ih]

theorem map_some_ofOption (y : List Rat) : (y.map some).map Num.ofOption = y.map .fin := by
  rw [List.map_map]
  rfl

theorem add_nan (x : Num) : Num.add x .nan = .nan := by cases x <;> rfl

theorem mul_nan (x : Num) : Num.mul x .nan = .nan := by cases x <;> rfl

theorem sum_nan {l : List Num} (h : .nan ∈ l) : Num.sum l = .nan := by
  have key : ∀ (l : List Num), l.foldl Num.add .nan = .nan := by
    intro l
    induction l with
    | nil => rfl
    | cons a l ih => exact ih
  have : ∀ (l : List Num) (a : Num), Num.nan ∈ l → l.foldl Num.add a = .nan := by
    intro l
    induction l with
    | nil => intro a h; cases h
    | cons b l ih =>
      intro a h
      rw [List.foldl_cons]
      rcases List.mem_cons.1 h with rfl | h
      · rw [add_nan, key]
      · exact ih _ h
  exact this l _ h

theorem mean_nan {l : List Num} (h : .nan ∈ l) : Num.mean l = .nan := by
  simp [Num.mean, sum_nan h, Num.div]

end Verif.MeasureProps
