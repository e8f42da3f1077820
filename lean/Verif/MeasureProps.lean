import Verif.MeasureLemmas

/-!
# Properties of error measures: C33

Targets are arrays.
-/

namespace Verif.MeasureProps

open Verif Rule Spec RFun RuleStatProps

/-- **C33 (mse).** The mean squared error is a number, not negative, and zero exactly when predictions and targets are equal
wherever both exist; it is NaN exactly when they never do; different lengths raise `ValueError`. -/
theorem C33_mse (pred y : List (Option Rat)) :
    (pred.length = y.length → both pred y ≠ [] → ∃ q : Rat, mse (pred.map Num.ofOption) (y.map Num.ofOption) = .ok (.fin q) ∧
      q * (both pred y).length = ((both pred y).map fun x => (x.1 - x.2) ^ 2).sum ∧ 0 ≤ q ∧
      (q = 0 ↔ ∀ x ∈ both pred y, x.1 = x.2)) ∧
    (pred.length = y.length → both pred y = [] → mse (pred.map Num.ofOption) (y.map Num.ofOption) = .ok .nan) ∧
    (pred.length ≠ y.length → mse (pred.map Num.ofOption) (y.map Num.ofOption) = .error .valueError) := by
  refine ⟨?_, ?_, ?_⟩
  · intro h hne
    have hpos : ((both pred y).length : Rat) ≠ 0 := by simpa using hne
    have hnn : ∀ x ∈ (both pred y).map fun x => (x.1 - x.2) ^ 2, 0 ≤ x := by
      intro x hx
      obtain ⟨z, -, rfl⟩ := List.mem_map.1 hx
      positivity
    refine ⟨_, by rw [mse_spec h, if_neg hne], ?_, meanOf_nonneg hnn, ?_⟩
    · rw [meanOf, List.length_map, div_mul_cancel₀ _ hpos]
    · rw [meanOf_eq_zero (by simpa using hne) hnn]
      constructor
      · intro hz x hx
        have := hz _ (List.mem_map_of_mem hx)
        exact sub_eq_zero.1 (pow_eq_zero_iff (by norm_num) |>.1 this)
      · intro hz x hx
        obtain ⟨z, hz', rfl⟩ := List.mem_map.1 hx
        simp [hz z hz']
  · intro h he
    rw [mse_spec h, if_pos he]
  · intro h
    simp [mse, errors, h, bind, Except.bind]

/-- **C33 (mae).** The same for the mean absolute error. -/
theorem C33_mae (pred y : List (Option Rat)) :
    (pred.length = y.length → both pred y ≠ [] → ∃ q : Rat, mae (pred.map Num.ofOption) (y.map Num.ofOption) = .ok (.fin q) ∧
      q * (both pred y).length = ((both pred y).map fun x => |x.1 - x.2|).sum ∧ 0 ≤ q ∧
      (q = 0 ↔ ∀ x ∈ both pred y, x.1 = x.2)) ∧
    (pred.length = y.length → both pred y = [] → mae (pred.map Num.ofOption) (y.map Num.ofOption) = .ok .nan) ∧
    (pred.length ≠ y.length → mae (pred.map Num.ofOption) (y.map Num.ofOption) = .error .valueError) := by
  refine ⟨?_, ?_, ?_⟩
  · intro h hne
    have hpos : ((both pred y).length : Rat) ≠ 0 := by simpa using hne
    have hnn : ∀ x ∈ (both pred y).map fun x => |x.1 - x.2|, 0 ≤ x := by
      intro x hx
      obtain ⟨z, -, rfl⟩ := List.mem_map.1 hx
      positivity
    refine ⟨_, by rw [mae_spec h, if_neg hne], ?_, meanOf_nonneg hnn, ?_⟩
    · rw [meanOf, List.length_map, div_mul_cancel₀ _ hpos]
    · rw [meanOf_eq_zero (by simpa using hne) hnn]
      constructor
      · intro hz x hx
        have := hz _ (List.mem_map_of_mem hx)
        exact sub_eq_zero.1 (abs_eq_zero.1 this)
      · intro hz x hx
        obtain ⟨z, hz', rfl⟩ := List.mem_map.1 hx
        simp [hz z hz']
  · intro h he
    rw [mae_spec h, if_pos he]
  · intro h
    simp [mae, errors, h, bind, Except.bind]

example : both [some 1, none, some 3, some 5] [some 2, some 7, none, some 5] = [(1, 2), (5, 5)] ∧
    mse ([some 1, none, some 3, some 5].map Num.ofOption) ([some 2, some 7, none, some 5].map Num.ofOption) =
      .ok (.fin (1 / 2)) ∧
    mae ([some 1, none, some 3, some 5].map Num.ofOption) ([some 2, some 7, none, some 5].map Num.ofOption) =
      .ok (.fin (1 / 2)) := by decide +kernel

/-- **C33 (mse_norm).** With targets which are all present, `mse_norm` divides the mean squared error by the one of the constant
prediction of the mean target.  Missing: targets with missing values, for which `mse_norm` is NaN
(`C33_mse_norm_missing`). -/
theorem C33_mse_norm_partial {pred : List (Option Rat)} {y : List Rat} (h : pred.length = y.length) (hne : y ≠ []) :
    ∃ a b : Num, mse (pred.map Num.ofOption) (y.map .fin) = .ok a ∧
      mse ((List.replicate y.length (some (meanOf y))).map Num.ofOption) (y.map .fin) = .ok b ∧
      mseNorm (pred.map Num.ofOption) (y.map .fin) = .ok (Num.div a b) := by
  have h' : pred.length = (y.map some).length := by simpa using h
  have e1 := mse_spec h'
  have e2 := mse_spec (pred := List.replicate y.length (some (meanOf y))) (y := y.map some) (by simp)
  rw [map_some_ofOption] at e1 e2
  refine ⟨_, _, e1, e2, ?_⟩
  simp only [mseNorm, e1, bind, Except.bind, mean_fin hne]
  congr 2
  rw [both_const, if_neg (by simpa using hne)]
  have : (y.map Num.fin).map (fun t => square (Num.sub (.fin (meanOf y)) t)) =
      ((y.map fun t => (meanOf y, t)).map fun x => (x.1 - x.2) ^ 2).map Num.fin := by
    simp only [List.map_map]
    apply List.map_congr_left
    intro t _
    simp [square, Num.sub, Num.add, Num.neg, Num.mul, sq, sub_eq_add_neg]
  rw [this, mean_fin (by simpa using hne)]

/-- **C33 (mse_norm, missing targets).** -/
theorem C33_mse_norm_missing {pred y : List (Option Rat)} (h : pred.length = y.length) (hm : none ∈ y) :
    mseNorm (pred.map Num.ofOption) (y.map Num.ofOption) = .ok .nan := by
  have hn : Num.nan ∈ y.map Num.ofOption := List.mem_map_of_mem (f := Num.ofOption) hm
  simp only [mseNorm, mse_spec h, bind, Except.bind, mean_nan hn]
  rw [mean_nan (List.mem_map.2 ⟨.nan, hn, rfl⟩)]
  congr 1
  split <;> rfl

example : mseNorm ([some 1, none, some 3].map Num.ofOption) ([1, 2, 6].map .fin) = .ok (.fin (27 / 28)) ∧
    mseNorm ([some 1, none, some 3].map Num.ofOption) ([some 1, some 2, none].map Num.ofOption) = .ok .nan := by
  decide +kernel

/-- **C33 (aae).** With targets which are all present, `aae` divides the mean absolute error by the one of the constant
prediction of their median.  Missing: targets with missing values, for which `aae` is NaN (`C33_aae_missing`). -/
theorem C33_aae_partial {pred : List (Option Rat)} {y : List Rat} {m : Rat} (h : pred.length = y.length) (hne : y ≠ [])
    (hm : median (y.map .fin) = .fin m) :
    ∃ a b : Num, mae (pred.map Num.ofOption) (y.map .fin) = .ok a ∧
      mae ((List.replicate y.length (some m)).map Num.ofOption) (y.map .fin) = .ok b ∧
      aae (pred.map Num.ofOption) (y.map .fin) = .ok (Num.div a b) := by
  have h' : pred.length = (y.map some).length := by simpa using h
  have e1 := mae_spec h'
  have e2 := mae_spec (pred := List.replicate y.length (some m)) (y := y.map some) (by simp)
  rw [map_some_ofOption] at e1 e2
  refine ⟨_, _, e1, e2, ?_⟩
  simp only [aae, e1, bind, Except.bind, hm]
  congr 2
  rw [both_const, if_neg (by simpa using hne)]
  have : (y.map Num.fin).map (fun t => Num.abs (Num.sub t (.fin m))) =
      ((y.map fun t => (m, t)).map fun x => |x.1 - x.2|).map Num.fin := by
    simp only [List.map_map]
    apply List.map_congr_left
    intro t _
    simp only [Function.comp_apply, Num.sub, Num.add, Num.neg, Num.abs, ← sub_eq_add_neg]
    rw [abs_sub_comm]
  rw [this, mean_fin (by simpa using hne)]

example : median ([5, 1, 2, 10].map .fin) = .fin (7 / 2) ∧ median ([5, 1, 2].map .fin) = .fin 2 := by decide +kernel

/-- **C33 (aae, missing targets).** With a missing target, `aae` is NaN. -/
theorem C33_aae_missing {pred y : List (Option Rat)} (h : pred.length = y.length) (hm : none ∈ y) :
    aae (pred.map Num.ofOption) (y.map Num.ofOption) = .ok .nan := by
  have hn : Num.nan ∈ y.map Num.ofOption := List.mem_map_of_mem (f := Num.ofOption) hm
  have hmed : median (y.map Num.ofOption) = .nan := by
    unfold median
    rw [if_pos (List.any_eq_true.2 ⟨.nan, hn, rfl⟩)]
  simp only [aae, mae_spec h, bind, Except.bind, hmed]
  rw [mean_nan (List.mem_map.2 ⟨.nan, hn, rfl⟩)]
  congr 1
  split <;> rfl

example : aae ([some 1, none, some 3].map Num.ofOption) ([some 1, some 2, none].map Num.ofOption) = .ok .nan := by decide +kernel

/-- **C33 (mae_norm).** What it is: `mae_norm` divides by the mean of `mean(y) - y`, which is zero, so that the result is
infinite unless the error is zero or missing. -/
theorem C33_mae_norm_infinite {pred : List (Option Rat)} {y : List Rat} (h : pred.length = y.length) (hne : y ≠ []) :
    (∃ q : Rat, 0 < q ∧ mae (pred.map Num.ofOption) (y.map .fin) = .ok (.fin q)) →
      maeNorm (pred.map Num.ofOption) (y.map .fin) = .ok .inf := by
  rintro ⟨q, hq, e⟩
  have hpos : (y.length : Rat) ≠ 0 := by simpa using hne
  have hz : (y.map Num.fin).map (fun t => Num.sub (.fin (meanOf y)) t) = (y.map fun t => meanOf y - t).map Num.fin := by
    simp only [List.map_map]
    apply List.map_congr_left
    intro t _
    simp [Num.sub, Num.add, Num.neg, sub_eq_add_neg]
  have hs : ∀ (c : Rat) (l : List Rat), (l.map fun t => c - t).sum = c * l.length - l.sum := by
    intro c l
    induction l with
    | nil => simp
    | cons a l ih => simp only [List.map_cons, List.sum_cons, ih, List.length_cons]; push_cast; ring
  simp only [maeNorm, e, bind, Except.bind, mean_fin hne]
  rw [hz, mean_fin (by simpa using hne)]
  have : meanOf (y.map fun t => meanOf y - t) = 0 := by
    rw [meanOf, hs, meanOf, div_mul_cancel₀ _ hpos, sub_self, zero_div]
  rw [this]
  simp [Num.div, Num.infSign, hq.ne', not_lt.2 hq.le]

example : mae ([some 0, some 0].map Num.ofOption) ([0, 2].map .fin) = .ok (.fin 1) ∧
    mae ([some 1, some 1].map Num.ofOption) ([0, 2].map .fin) = .ok (.fin 1) ∧
    maeNorm ([some 0, some 0].map Num.ofOption) ([0, 2].map .fin) = .ok .inf := by decide +kernel

/-- **C33 (mae_norm) is false**: it does not divide by the error of the constant prediction of the mean target. -/
theorem C33_mae_norm_false :
    ¬ ∀ (pred : List (Option Rat)) (y : List Rat) (a b : Num), pred.length = y.length → y ≠ [] →
      mae (pred.map Num.ofOption) (y.map .fin) = .ok a →
      mae ((List.replicate y.length (some (meanOf y))).map Num.ofOption) (y.map .fin) = .ok b →
      maeNorm (pred.map Num.ofOption) (y.map .fin) = .ok (Num.div a b) := by
  intro h
  have := h [some 0, some 0] [0, 2] (.fin 1) (.fin 1) rfl (by simp) (by decide +kernel) (by decide +kernel)
  exact absurd this (by decide +kernel)

/-- **C33 (success rate of a rule).** The success rate of a label is a number between 0 and 1, and 1 exactly when all targets are
this label; NaN without targets. -/
theorem C33_success_rate {p : Label} {y : List Label} (hp : IsClass p) (hy : ∀ t ∈ y, IsClass t) :
    (y ≠ [] → ∃ q : Rat, successRate p y = .fin q ∧ q = frequency p y ∧ 0 ≤ q ∧ q ≤ 1 ∧ (q = 1 ↔ ∀ t ∈ y, t = p)) ∧
    (y = [] → successRate p y = .nan) := by
  constructor
  · intro hne
    have hpos : (0 : Rat) < y.length := by
      have := List.length_pos_iff.2 hne
      exact_mod_cast this
    have hc : (y.filter fun t => p.eq t).length = y.count p := by
      rw [List.count_eq_length_filter]
      congr 1
      apply List.filter_congr
      intro t ht
      rw [Bool.eq_iff_iff, eq_iff hp (hy t ht), beq_iff_eq, eq_comm]
    refine ⟨frequency p y, ?_, rfl, ?_, ?_, ?_⟩
    · simp [successRate, hne, hc, frequency]
    · rw [frequency]
      exact div_nonneg (by positivity) hpos.le
    · rw [frequency, div_le_one hpos]
      exact_mod_cast List.count_le_length
    · rw [frequency, div_eq_one_iff_eq hpos.ne']
      rw [Nat.cast_inj, List.count_eq_length]
      exact ⟨fun h t ht => (h t ht).symm, fun h t ht => (h t ht).symm⟩
  · intro h
    simp [successRate, h]

example : successRate (.text "a") [.text "a", .text "b", .text "a"] = .fin (2 / 3) := by decide +kernel

/-- **C33 (success rate of a prediction vector).** Over the points which have a prediction, the success rate is between 0 and
1, and 1 exactly when all of them are right; NaN when no point has a prediction. -/
theorem C33_success_rate_vector {pred y : List Label} (hl : pred.length = y.length) (hne : y ≠ [])
    (hp : ∀ p ∈ pred, IsClass p ∨ p = .num .nan) (hy : ∀ t ∈ y, IsClass t) :
    ((∃ p ∈ pred, p ≠ .num .nan) → ∃ q : Rat, successRateVector pred y = .ok (some (.fin q)) ∧ 0 ≤ q ∧ q ≤ 1 ∧
      (q = 1 ↔ ∀ x ∈ pred.zip y, x.1 ≠ .num .nan → x.1 = x.2)) ∧
    ((∀ p ∈ pred, p = .num .nan) → successRateVector pred y = .ok (some .nan)) := by
  have nan_iff : ∀ p ∈ pred, p.isNaN = true ↔ p = .num .nan := by
    intro p h
    rcases hp p h with (⟨q, rfl⟩ | ⟨s, rfl⟩) | rfl <;> simp [Label.isNaN, Num.isNaN]
  have eqv : ∀ p t, (IsClass p ∨ p = .num .nan) → IsClass t → (p.eq t = true ↔ p = t ∧ p ≠ .num .nan) := by
    intro p t h1 h2
    rcases h1 with h1 | rfl
    · rw [eq_iff h1 h2]
      refine ⟨fun h => ⟨h, ?_⟩, fun h => h.1⟩
      rcases h1 with ⟨q, rfl⟩ | ⟨s, rfl⟩ <;> simp
    · rcases h2 with ⟨q, rfl⟩ | ⟨s, rfl⟩ <;> simp [Label.eq, Num.beq, Num.le]
  have key : ∀ (pred y : List Label), pred.length = y.length → (∀ p ∈ pred, IsClass p ∨ p = .num .nan) → (∀ t ∈ y, IsClass t) →
      (List.zipWith Label.eq pred y).count true ≤ (pred.filter fun p => !p.isNaN).length ∧
      ((List.zipWith Label.eq pred y).count true = (pred.filter fun p => !p.isNaN).length ↔
        ∀ x ∈ pred.zip y, x.1 ≠ .num .nan → x.1 = x.2) := by
    intro pred
    induction pred with
    | nil => intro y _ _ _; simp
    | cons p pred ih =>
      intro y hl h1 h2
      cases y with
      | nil => simp at hl
      | cons t y =>
        obtain ⟨i1, i2⟩ := ih y (by simpa using hl) (fun q hq => h1 q (List.mem_cons_of_mem _ hq)) (fun q hq => h2 q (List.mem_cons_of_mem _ hq))
        have e := eqv p t (h1 p List.mem_cons_self) (h2 t List.mem_cons_self)
        simp only [List.zipWith_cons_cons, List.zip_cons_cons, List.forall_mem_cons]
        rcases h1 p List.mem_cons_self with hc | rfl
        · have hn : p ≠ .num .nan := by rcases hc with ⟨q, rfl⟩ | ⟨s, rfl⟩ <;> simp
          have hnn : p.isNaN = false := by rcases hc with ⟨q, rfl⟩ | ⟨s, rfl⟩ <;> rfl
          rw [List.filter_cons_of_pos (by simp [hnn]), List.length_cons]
          by_cases hpt : p = t
          · rw [e.2 ⟨hpt, hn⟩, List.count_cons_self]
            refine ⟨by omega, ?_⟩
            rw [Nat.add_right_cancel_iff, i2]
            simp [hpt]
          · have : p.eq t = false := by
              cases hb : p.eq t with
              | false => rfl
              | true => exact absurd (e.1 hb).1 hpt
            rw [this, List.count_cons_of_ne (by simp)]
            refine ⟨by omega, ?_⟩
            constructor
            · intro h; omega
            · intro h; exact absurd (h.1 hn) hpt
        · have : (Label.num .nan).eq t = false := by
            cases hb : (Label.num .nan).eq t with
            | false => rfl
            | true => exact absurd rfl (e.1 hb).2
          rw [this, List.count_cons_of_ne (by simp), List.filter_cons_of_neg (by simp [Label.isNaN, Num.isNaN])]
          refine ⟨i1, ?_⟩
          rw [i2]
          simp
  obtain ⟨k1, k2⟩ := key pred y hl hp hy
  constructor
  · rintro ⟨p, hpm, hpn⟩
    have hpos : 0 < (pred.filter fun p => !p.isNaN).length := by
      apply List.length_pos_of_mem (a := p)
      rw [List.mem_filter]
      refine ⟨hpm, ?_⟩
      cases hb : p.isNaN with
      | false => rfl
      | true => exact absurd ((nan_iff p hpm).1 hb) hpn
    have hpos' : (0 : Rat) < (pred.filter fun p => !p.isNaN).length := by exact_mod_cast hpos
    refine ⟨((List.zipWith Label.eq pred y).count true : Rat) / (pred.filter fun p => !p.isNaN).length, ?_, ?_, ?_, ?_⟩
    · simp only [successRateVector, List.length_eq_zero_iff, hne, if_false, hl, ne_eq, not_true_eq_false, Num.div]
      rw [if_neg hpos'.ne']
    · exact div_nonneg (by positivity) hpos'.le
    · rw [div_le_one hpos']
      exact_mod_cast k1
    · rw [div_eq_one_iff_eq hpos'.ne', Nat.cast_inj, k2]
  · intro hall
    have e : pred.filter (fun p => !p.isNaN) = [] := by
      rw [List.filter_eq_nil_iff]
      intro p h
      simp [(nan_iff p h).2 (hall p h)]
    have h0 : (List.zipWith Label.eq pred y).count true = 0 := by
      rw [e] at k1
      simpa using k1
    simp [successRateVector, hne, hl, e, h0, Num.div, Num.infSign]

example : successRateVector [.text "a", .num .nan, .text "b", .text "a"] [.text "a", .text "b", .text "c", .text "a"] =
    .ok (some (.fin (2 / 3))) := by decide +kernel

/-- **C33 (criterion of a regression rule).** After an `eval` with `criterion_method="mse"` which does not raise, of a rule with
features which is still good (or with `force_if_not_good`): the criterion is the mean over the activated points which have a target
of the squared distance between the target and the prediction of the rule; NaN when there is none. -/
theorem C33_rule_mse {E : Env} {y : List (Option Rat)} {xs : Option Xs} {rc force : Bool} {kw : Kw} {r r' : Rule} {u : List Bool}
    {m : Rat} (hk : E.kind = .regression) (hkw : kw.criterionMethod = some "mse") (hx : ∀ x, xs = some x → x.length ≠ 0)
    (hp : r.prediction = .label (.num (.fin m))) (hf : r.length ≠ 0) (hu : Uses E r xs (arr u)) (hl : y.length = u.length)
    (hne : u ≠ []) (h : eval E (targets y) xs rc force kw r = (.ok (), r')) (hg : r'.good = true ∨ force = true) :
    r'.criterion = .num (if present (activated u y) = [] then .nan
      else .fin (meanOf ((present (activated u y)).map fun t => (m - t) ^ 2))) := by
  obtain ⟨v, p, ps, ys, c, hv, h1, h2, h3, h4, h5⟩ := eval_regression hk hx h hg
  have ev : v = arr u := by
    cases xs with
    | some x => exact Except.ok.inj (hv.symm.trans hu)
    | none => exact Option.some.inj (hv.symm.trans hu)
  subst ev
  rw [targets, numbers_ofOption] at h3
  cases h3
  have hgp : r.getPrediction E = .ok (some (.num (.fin m))) := by simp [getPrediction, hp]
  rw [(RuleProps.C18_vector_partial hgp hf hne).1] at h1
  cases h1
  have hpred : (u.map fun b => if b then Label.num (.fin m) else .num .nan) =
      (u.map fun b => if b then some m else none).map fun q => Label.num (Num.ofOption q) := by
    rw [List.map_map]
    apply List.map_congr_left
    rintro b -
    cases b <;> rfl
  rw [Option.getD_some, hpred, numbers_ofOption] at h2
  cases h2
  rw [hkw, Option.getD_some, regressionCriterion, if_pos rfl, mse_spec (by simp [hl])] at h4
  cases h4
  rw [h5]
  have hb : ∀ (u : List Bool) (y : List (Option Rat)),
      both (u.map fun b => if b then some m else none) y = (present (activated u y)).map fun t => (m, t) := by
    intro u
    induction u with
    | nil => intro y; rfl
    | cons b u ih =>
      intro y
      cases y with
      | nil => rfl
      | cons t y =>
        have := ih y
        simp only [both, activated, present, List.map_cons, List.zip_cons_cons] at this ⊢
        cases b with
        | false =>
          rw [List.filter_cons_of_neg (by simp), ← this]
          rfl
        | true =>
          rw [List.filter_cons_of_pos (by simp)]
          cases t with
          | none => simpa using this
          | some t => simpa using this
  rw [hb]
  simp only [List.map_eq_nil_iff, List.map_map]
  rfl

/-- Evaluation of a rule whose prediction is 2 on four points, three activated, one without target. -/
example :
    let E := RuleProps.someEnv .regression
    let r := RuleProps.someRule (.label (.num (.fin 2))) [1]
    let y : List (Option Rat) := [some 1, none, some 7, some 4]
    (eval E (targets y) (some RuleProps.someXs) true false { criterionMethod := some "mse" } r).1 = .ok () ∧
      (eval E (targets y) (some RuleProps.someXs) true false { criterionMethod := some "mse" } r).2.criterion =
        .num (.fin (5 / 2)) ∧ r.length ≠ 0 ∧ RuleProps.someXs.length ≠ 0 := by decide +kernel

/-- **C33 (criterion of a classification rule).** After an `eval` which does not raise: the criterion is the frequency of the
predicted class among the activated points. -/
theorem C33_rule_success {E : Env} {y : List Label} {xs : Option Xs} {rc force : Bool} {kw : Kw} {r r' : Rule} {u : List Bool}
    {p : Label} (hk : E.kind = .classification) (hx : ∀ x, xs = some x → x.length ≠ 0)
    (hp : r.getPrediction E = .ok (some p)) (hpc : IsClass p) (hu : Uses E r xs (arr u)) (hl : y.length = u.length)
    (hy : ∀ t ∈ activated u y, IsClass t) (hne : activated u y ≠ [])
    (h : eval E y xs rc force kw r = (.ok (), r')) (hg : r'.good = true ∨ force = true) :
    r'.criterion = .num (.fin (frequency p (activated u y))) := by
  obtain ⟨v, p', c, hv, h1, h2, h3⟩ := eval_classification hk hx h hg
  have ev : v = arr u := by
    cases xs with
    | some x => exact Except.ok.inj (hv.symm.trans hu)
    | none => exact Option.some.inj (hv.symm.trans hu)
  subst ev
  rw [hp] at h1
  cases h1
  simp only [classificationCriterion, extract_arr hl, bind, Except.bind] at h2
  split at h2
  · cases h2
    obtain ⟨q, e, rfl, -⟩ := (C33_success_rate hpc hy).1 hne
    rw [h3, e]
  · cases h2

example :
    let E := RuleProps.someEnv .classification
    let r := RuleProps.someRule (.label (.text "b")) [1]
    let y : List Label := [.text "b", .text "a", .text "b", .text "b"]
    (eval E y (some RuleProps.someXs) false false {} r).1 = .ok () ∧
      (eval E y (some RuleProps.someXs) false false {} r).2.criterion = .num (.fin (2 / 3)) := by decide +kernel

end Verif.MeasureProps
