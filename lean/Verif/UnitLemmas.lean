import Verif.UnitSpec
import Verif.RuleFit
import Verif.CoverageLemmas
import Verif.MeasureProps
import Verif.FigureProps

/-!
# Lemmas for `UnitProps.lean`
-/

namespace Verif.Units

open Verif Rule Spec RFun RuleStatProps MeasureProps

variable {a b : Rat}

theorem present_convert (y : List (Option Rat)) : present (y.map (convert a b)) = (present y).map fun t => a * t + b := by
  induction y with
  | nil => rfl
  | cons x y ih => cases x <;> simp_all [present, convert]

theorem both_convert (p y : List (Option Rat)) :
    both (p.map (convert a b)) (y.map (convert a b)) = (both p y).map fun x => (a * x.1 + b, a * x.2 + b) := by
  induction p generalizing y with
  | nil => rfl
  | cons x p ih =>
    cases y with
    | nil => rfl
    | cons t y =>
      have := ih y
      simp only [both, List.map_cons, List.zip_cons_cons] at this ⊢
      cases x <;> cases t <;> simp_all [convert]

theorem sum_affine (l : List Rat) : (l.map fun t => a * t + b).sum = a * l.sum + b * l.length := by
  induction l with
  | nil => simp
  | cons x l ih => simp only [List.map_cons, List.sum_cons, ih, List.length_cons]; push_cast; ring

theorem sum_scale {α} (f : α → Rat) (l : List α) : (l.map fun x => a * f x).sum = a * (l.map f).sum := by
  induction l with
  | nil => simp
  | cons x l ih => simp only [List.map_cons, List.sum_cons, ih]; ring

theorem meanOf_affine {l : List Rat} (h : l ≠ []) : meanOf (l.map fun t => a * t + b) = a * meanOf l + b := by
  have : (l.length : Rat) ≠ 0 := by simpa using h
  rw [meanOf, meanOf, sum_affine, List.length_map]
  field_simp

theorem meanOf_scale {α} (f : α → Rat) (l : List α) : meanOf (l.map fun x => a * f x) = a * meanOf (l.map f) := by
  rw [meanOf, meanOf, sum_scale, List.length_map, List.length_map, mul_div_assoc]

theorem squares_affine {l : List Rat} (h : l ≠ []) :
    ((l.map fun t => a * t + b).map fun x => (x - meanOf (l.map fun t => a * t + b)) ^ 2).sum =
      a * a * (l.map fun x => (x - meanOf l) ^ 2).sum := by
  rw [meanOf_affine h, List.map_map, ← sum_scale]
  congr 1
  apply List.map_congr_left
  intro t _
  simp only [Function.comp]
  ring

theorem varianceOf_affine {l : List Rat} (h : l ≠ []) :
    varianceOf (l.map fun t => a * t + b) = a * a * varianceOf l := by
  rw [varianceOf, varianceOf, squares_affine h, List.length_map, mul_div_assoc]

theorem populationVariance_affine {l : List Rat} (h : l ≠ []) :
    populationVariance (l.map fun t => a * t + b) = a * a * populationVariance l := by
  rw [populationVariance, populationVariance, squares_affine h, List.length_map, mul_div_assoc]

theorem varianceOf_nonneg {l : List Rat} (h : 1 ≤ l.length) : 0 ≤ varianceOf l := by
  refine div_nonneg (List.sum_nonneg ?_) ?_
  · intro x hx
    obtain ⟨t, _, rfl⟩ := List.mem_map.1 hx
    positivity
  · have : (1 : Rat) ≤ l.length := by exact_mod_cast h
    linarith

theorem populationVariance_nonneg (l : List Rat) : 0 ≤ populationVariance l := by
  refine div_nonneg (List.sum_nonneg ?_) (by positivity)
  intro x hx
  obtain ⟨t, _, rfl⟩ := List.mem_map.1 hx
  positivity

theorem div_nan (x : Num) : Num.div x .nan = .nan := by cases x <;> rfl

theorem nan_div (x : Num) : Num.div .nan x = .nan := by cases x <;> rfl

/-- A common positive factor may be left out of a fraction. -/
theorem div_scale {c : Rat} (hc : 0 < c) (x : Rat) (y : Num) :
    Num.div (.fin (c * x)) (Num.mul (.fin c) y) = Num.div (.fin x) y := by
  cases y with
  | nan => rfl
  | ninf =>
    simp [Num.mul, Num.infSign, hc.ne', not_lt.2 hc.le, hc, Num.div]
  | inf =>
    simp [Num.mul, Num.infSign, hc.ne', not_lt.2 hc.le, Num.div]
  | fin y =>
    simp only [Num.mul, Num.div, Num.infSign]
    rw [mul_div_mul_left _ _ hc.ne']
    simp only [mul_eq_zero, hc.ne', false_or, mul_neg_iff, hc, not_lt.2 hc.le, true_and, false_and, or_false]

theorem mul_scale {c : Rat} (hc : 0 < c) (x : Num) (s : Rat) :
    Num.mul x (.fin (c * s)) = Num.mul (.fin c) (Num.mul x (.fin s)) := by
  have hs : ∀ q : Rat, Num.infSign (c * q) = Num.mul (.fin c) (Num.infSign q) := by
    intro q
    simp only [Num.infSign, mul_eq_zero, hc.ne', false_or, mul_neg_iff, hc, not_lt.2 hc.le, true_and, false_and, or_false]
    split
    · rfl
    · split <;> simp [Num.mul, Num.infSign, hc.ne', not_lt.2 hc.le, hc]
  cases x with
  | nan => rfl
  | inf => exact hs s
  | ninf =>
    have := hs (-s)
    rw [mul_neg] at this
    exact this
  | fin x => simp only [Num.mul]; congr 1; ring

/-- The z-score has no unit. -/
theorem zscore_convert {sqrt : Num → Num} (ha : 0 < a) (hs : Root sqrt a) (p : Option Rat) (n : Nat) (y : List (Option Rat))
    (hp : present y = [] → p = none) (horizon : Num) :
    zscoreExternal sqrt (Num.ofOption (convert a b p)) n ((y.map (convert a b)).map Num.ofOption) horizon =
      zscoreExternal sqrt (Num.ofOption p) n (y.map Num.ofOption) horizon := by
  unfold zscoreExternal
  split
  · rfl
  · cases p with
    | none => simp [convert, Num.ofOption, Num.sub, Num.add, Num.abs, nan_div]
    | some m =>
      have hne : present y ≠ [] := fun e => by cases hp e
      have hne' : present (y.map (convert a b)) ≠ [] := by rw [present_convert]; simpa using hne
      have hm : Num.nanmean (y.map Num.ofOption) = .fin (meanOf (present y)) := by
        rw [Num.nanmean, dropna_ofOption, mean_fin hne]
      have hm' : Num.nanmean ((y.map (convert a b)).map Num.ofOption) = .fin (a * meanOf (present y) + b) := by
        rw [Num.nanmean, dropna_ofOption, mean_fin hne', present_convert, meanOf_affine hne]
      rw [hm, hm', nanvar_population hne, nanvar_population hne', present_convert, populationVariance_affine hne]
      obtain ⟨s, h1, h2⟩ := hs.fin _ (populationVariance_nonneg (present y))
      rw [h1, h2, mul_scale ha]
      have : Num.abs (Num.sub (Num.ofOption (convert a b (some m))) (.fin (a * meanOf (present y) + b))) =
          .fin (a * |m - meanOf (present y)|) := by
        simp only [convert, Option.map, Num.ofOption, Num.sub, Num.neg, Num.add, Num.abs]
        rw [← abs_of_pos ha, ← abs_mul]
        congr 2
        rw [abs_of_pos ha]
        ring
      rw [this, div_scale ha]
      simp [Num.ofOption, Num.sub, Num.neg, Num.add, Num.abs, sub_eq_add_neg]

theorem ok_map {x : Num} {f : Num → Num} : (Except.ok x : Except Err Num).map f = .ok (f x) := rfl

theorem mse_convert (pred y : List (Option Rat)) :
    mse ((pred.map (convert a b)).map Num.ofOption) ((y.map (convert a b)).map Num.ofOption) =
      (mse (pred.map Num.ofOption) (y.map Num.ofOption)).map (Num.mul (.fin (a * a))) := by
  by_cases h : pred.length = y.length
  · rw [mse_spec h, mse_spec (by simpa using h), both_convert]
    simp only [ok_map, List.map_eq_nil_iff, List.map_map]
    split
    · rfl
    · simp only [Num.mul]
      rw [← meanOf_scale]
      congr 3
      apply List.map_congr_left
      intro x _
      simp only [Function.comp]
      ring
  · rw [(C33_mse pred y).2.2 h, (C33_mse _ _).2.2 (by simpa using h)]
    rfl

theorem mae_convert (ha : 0 < a) (pred y : List (Option Rat)) :
    mae ((pred.map (convert a b)).map Num.ofOption) ((y.map (convert a b)).map Num.ofOption) =
      (mae (pred.map Num.ofOption) (y.map Num.ofOption)).map (Num.mul (.fin a)) := by
  by_cases h : pred.length = y.length
  · rw [mae_spec h, mae_spec (by simpa using h), both_convert]
    simp only [ok_map, List.map_eq_nil_iff, List.map_map]
    split
    · rfl
    · simp only [Num.mul]
      rw [← meanOf_scale]
      congr 3
      apply List.map_congr_left
      intro x _
      simp only [Function.comp]
      rw [← abs_of_pos ha, ← abs_mul, abs_of_pos ha]
      congr 1
      ring
  · rw [(C33_mae pred y).2.2 h, (C33_mae _ _).2.2 (by simpa using h)]
    rfl

/-- No target is missing, or one is. -/
theorem all_or_missing (y : List (Option Rat)) : none ∈ y ∨ ∃ y0 : List Rat, y = y0.map some := by
  induction y with
  | nil => exact Or.inr ⟨[], rfl⟩
  | cons x y ih =>
    cases x with
    | none => exact Or.inl (by simp)
    | some q =>
      rcases ih with h | ⟨y0, rfl⟩
      · exact Or.inl (by simp [h])
      · exact Or.inr ⟨q :: y0, rfl⟩

theorem convert_some (y : List Rat) : (y.map some).map (convert a b) = (y.map fun t => a * t + b).map some := by
  simp [convert]

theorem none_convert {y : List (Option Rat)} (h : none ∈ y) : none ∈ y.map (convert a b) :=
  List.mem_map.2 ⟨none, h, rfl⟩

/-- The error of a constant prediction -/
theorem mse_const (m : Rat) (y : List Rat) (hne : y ≠ []) :
    Num.mean ((y.map Num.fin).map fun t => square (Num.sub (.fin m) t)) = .fin (meanOf (y.map fun t => (m - t) ^ 2)) := by
  rw [← mean_fin (by simpa using hne), List.map_map, List.map_map]
  congr 1
  apply List.map_congr_left
  intro t _
  simp [square, Num.sub, Num.neg, Num.add, Num.mul, sub_eq_add_neg, sq]

theorem mae_const (m : Rat) (y : List Rat) (hne : y ≠ []) :
    Num.mean ((y.map Num.fin).map fun t => Num.abs (Num.sub t (.fin m))) = .fin (meanOf (y.map fun t => |t - m|)) := by
  rw [← mean_fin (by simpa using hne), List.map_map, List.map_map]
  congr 1
  apply List.map_congr_left
  intro t _
  simp [Num.abs, Num.sub, Num.neg, Num.add, sub_eq_add_neg]

theorem deviations_zero (y : List Rat) (hne : y ≠ []) :
    Num.mean ((y.map Num.fin).map fun t => Num.sub (.fin (meanOf y)) t) = .fin 0 := by
  have hpos : (y.length : Rat) ≠ 0 := by simpa using hne
  have hz : (y.map Num.fin).map (fun t => Num.sub (.fin (meanOf y)) t) = (y.map fun t => -1 * t + meanOf y).map Num.fin := by
    simp only [List.map_map]
    apply List.map_congr_left
    intro t _
    simp [Num.sub, Num.add, Num.neg, add_comm]
  rw [hz, mean_fin (by simpa using hne), meanOf_affine hne]
  simp

/-- The quotient of two measures of the same unit has none. -/
theorem quotient_convert {c : Rat} (hc : 0 < c) (x y : Num) (hx : x = .nan ∨ ∃ q, x = .fin q) :
    Num.div (Num.mul (.fin c) x) (Num.mul (.fin c) y) = Num.div x y := by
  rcases hx with rfl | ⟨q, rfl⟩
  · rw [mul_nan, nan_div, nan_div]
  · exact div_scale hc q y

theorem mse_range (pred y : List (Option Rat)) (h : pred.length = y.length) :
    ∃ x, mse (pred.map Num.ofOption) (y.map Num.ofOption) = .ok x ∧ (x = .nan ∨ ∃ q, x = .fin q) := by
  rw [mse_spec h]
  refine ⟨_, rfl, ?_⟩
  split
  · exact Or.inl rfl
  · exact Or.inr ⟨_, rfl⟩

theorem mae_range (pred y : List (Option Rat)) (h : pred.length = y.length) :
    ∃ x, mae (pred.map Num.ofOption) (y.map Num.ofOption) = .ok x ∧ (x = .nan ∨ ∃ q, x = .fin q) := by
  rw [mae_spec h]
  refine ⟨_, rfl, ?_⟩
  split
  · exact Or.inl rfl
  · exact Or.inr ⟨_, rfl⟩

theorem mseNorm_convert (ha : 0 < a) (pred y : List (Option Rat)) :
    mseNorm ((pred.map (convert a b)).map Num.ofOption) ((y.map (convert a b)).map Num.ofOption) =
      mseNorm (pred.map Num.ofOption) (y.map Num.ofOption) := by
  by_cases h : pred.length = y.length
  · obtain ⟨x, hx, hr⟩ := mse_range pred y h
    rcases all_or_missing y with hm | ⟨y0, rfl⟩
    · rw [C33_mse_norm_missing h hm, C33_mse_norm_missing (by simpa using h) (none_convert hm)]
    · unfold mseNorm
      rw [mse_convert, hx]
      simp only [ok_map, bind, Except.bind]
      by_cases hne : y0 = []
      · subst hne
        have hp : pred = [] := by simpa using h
        subst hp
        cases hx
        rfl
      · rw [convert_some, map_some_ofOption, map_some_ofOption, mean_fin hne, mean_fin (by simpa using hne), mse_const _ _ hne,
          mse_const _ _ (by simpa using hne), meanOf_affine hne, List.map_map]
        rw [show ((fun t => (a * meanOf y0 + b - t) ^ 2) ∘ fun t => a * t + b) = fun t => a * a * (meanOf y0 - t) ^ 2 by
          funext t; simp only [Function.comp]; ring, meanOf_scale]
        exact congrArg _ (quotient_convert (mul_pos ha ha) x (.fin _) hr)
  · unfold mseNorm
    rw [mse_convert, (C33_mse pred y).2.2 h]
    rfl

theorem maeNorm_convert (ha : 0 < a) (pred y : List (Option Rat)) :
    maeNorm ((pred.map (convert a b)).map Num.ofOption) ((y.map (convert a b)).map Num.ofOption) =
      maeNorm (pred.map Num.ofOption) (y.map Num.ofOption) := by
  by_cases h : pred.length = y.length
  · obtain ⟨x, hx, hr⟩ := mae_range pred y h
    unfold maeNorm
    rw [mae_convert ha, hx]
    simp only [ok_map, bind, Except.bind]
    rcases all_or_missing y with hm | ⟨y0, rfl⟩
    · have hn : Num.nan ∈ y.map Num.ofOption := List.mem_map_of_mem (f := Num.ofOption) hm
      have hn' : Num.nan ∈ (y.map (convert a b)).map Num.ofOption := List.mem_map_of_mem (f := Num.ofOption) (none_convert hm)
      rw [mean_nan (List.mem_map.2 ⟨.nan, hn', by rw [mean_nan hn']; rfl⟩), mean_nan (List.mem_map.2 ⟨.nan, hn, by rw [mean_nan hn]; rfl⟩),
        div_nan, div_nan]
    · by_cases hne : y0 = []
      · subst hne
        have hp : pred = [] := by simpa using h
        subst hp
        cases hx
        rfl
      · have hne' : (y0.map fun t => a * t + b) ≠ [] := by simpa using hne
        rw [convert_some, map_some_ofOption, map_some_ofOption, mean_fin hne, mean_fin hne', deviations_zero _ hne,
          deviations_zero _ hne']
        have := quotient_convert ha x (.fin 0) hr
        rw [show Num.mul (.fin a) (.fin 0) = .fin 0 by simp [Num.mul]] at this
        exact congrArg _ this
  · unfold maeNorm
    rw [mae_convert ha, (C33_mae pred y).2.2 h]
    rfl

theorem median_convert (ha : 0 < a) {y : List Rat} (hne : y ≠ []) :
    ∃ m, median (y.map .fin) = .fin m ∧ median ((y.map fun t => a * t + b).map .fin) = .fin (a * m + b) := by
  have hnan : ∀ y : List Rat, (y.map Num.fin).any Num.isNaN = false := by
    intro y
    rw [Bool.eq_false_iff]
    intro h
    obtain ⟨x, hx, h⟩ := List.any_eq_true.1 h
    obtain ⟨q, _, rfl⟩ := List.mem_map.1 hx
    cases h
  have hsort : ∀ y : List Rat, (y.map Num.fin).insertionSort (fun a b => a.le b = true) = (y.insertionSort (· ≤ ·)).map Num.fin := by
    intro y
    symm
    refine List.map_insertionSort (r := (· ≤ ·)) (s := fun a b : Num => a.le b = true) Num.fin y fun a _ b _ => ?_
    simp [Num.le]
  have hmove : (y.map fun t => a * t + b).insertionSort (· ≤ ·) = (y.insertionSort (· ≤ ·)).map fun t => a * t + b := by
    symm
    refine List.map_insertionSort (r := (· ≤ ·)) (s := (· ≤ ·)) _ y fun p _ q _ => ?_
    constructor
    · intro h; nlinarith
    · intro h; nlinarith
  have hlen : y.insertionSort (· ≤ ·) ≠ [] := by
    intro e
    have := (List.perm_insertionSort (· ≤ ·) y).length_eq
    rw [e] at this
    exact hne (List.length_eq_zero_iff.1 this.symm)
  unfold median
  simp only [hnan, hsort, hmove, Bool.false_eq_true, if_false, List.length_map]
  generalize y.insertionSort (· ≤ ·) = s at hlen
  have hpos : 0 < s.length := List.length_pos_iff.2 hlen
  split
  · have hk : s.length / 2 < s.length := by omega
    refine ⟨s[s.length / 2], ?_, ?_⟩
    · rw [List.getElem?_map, List.getElem?_eq_getElem hk]; rfl
    · rw [List.getElem?_map, List.getElem?_map, List.getElem?_eq_getElem hk]; rfl
  · have hd : (s.drop (s.length / 2 - 1)).take 2 ≠ [] := by
      intro e
      have := congrArg List.length e
      simp only [List.length_take, List.length_drop, List.length_nil] at this
      omega
    refine ⟨meanOf ((s.drop (s.length / 2 - 1)).take 2), ?_, ?_⟩
    · rw [← List.map_drop, ← List.map_take, mean_fin hd]
    · rw [← List.map_drop, ← List.map_take, ← List.map_drop, ← List.map_take, mean_fin (by simpa using hd), meanOf_affine hd]

theorem aae_convert (ha : 0 < a) (pred y : List (Option Rat)) :
    aae ((pred.map (convert a b)).map Num.ofOption) ((y.map (convert a b)).map Num.ofOption) =
      aae (pred.map Num.ofOption) (y.map Num.ofOption) := by
  by_cases h : pred.length = y.length
  · obtain ⟨x, hx, hr⟩ := mae_range pred y h
    unfold aae
    rw [mae_convert ha, hx]
    simp only [ok_map, bind, Except.bind]
    rcases all_or_missing y with hm | ⟨y0, rfl⟩
    · have hn : Num.nan ∈ y.map Num.ofOption := List.mem_map_of_mem (f := Num.ofOption) hm
      have hn' : Num.nan ∈ (y.map (convert a b)).map Num.ofOption := List.mem_map_of_mem (f := Num.ofOption) (none_convert hm)
      rw [mean_nan (List.mem_map.2 ⟨.nan, hn', rfl⟩), mean_nan (List.mem_map.2 ⟨.nan, hn, rfl⟩), div_nan, div_nan]
    · by_cases hne : y0 = []
      · subst hne
        have hp : pred = [] := by simpa using h
        subst hp
        cases hx
        rfl
      · obtain ⟨m, h1, h2⟩ := median_convert (b := b) ha hne
        rw [convert_some, map_some_ofOption, map_some_ofOption, h1, h2, mae_const _ _ hne, mae_const _ _ (by simpa using hne),
          List.map_map]
        rw [show ((fun t => |t - (a * m + b)|) ∘ fun t => a * t + b) = fun t => a * |t - m| by
          funext t
          simp only [Function.comp]
          rw [← abs_of_pos ha, ← abs_mul, abs_of_pos ha]
          congr 1
          ring, meanOf_scale]
        exact congrArg _ (quotient_convert ha x (.fin _) hr)
  · unfold aae
    rw [mae_convert ha, (C33_mae pred y).2.2 h]
    rfl

theorem one_mul_num (x : Num) : Num.mul (.fin 1) x = x := by
  cases x <;> simp [Num.mul, Num.infSign]

theorem map_one (x : Except Err Num) : x.map (Num.mul (.fin 1)) = x := by
  cases x with
  | error e => rfl
  | ok x => rw [ok_map, one_mul_num]

theorem criterion_convert (ha : 0 < a) (method : String) (pred y : List (Option Rat)) :
    regressionCriterion method ((pred.map (convert a b)).map Num.ofOption) ((y.map (convert a b)).map Num.ofOption) =
      (regressionCriterion method (pred.map Num.ofOption) (y.map Num.ofOption)).map (Num.mul (.fin (factor a method))) := by
  unfold regressionCriterion factor
  split
  · exact mse_convert pred y
  split
  · next h => rw [if_neg (by rw [h]; decide), map_one, mseNorm_convert ha]
  split
  · exact mae_convert ha pred y
  rw [map_one]
  split
  · exact maeNorm_convert ha pred y
  split
  · exact aae_convert ha pred y
  rfl

end Verif.Units
