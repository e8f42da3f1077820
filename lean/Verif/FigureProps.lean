import Verif.CoverageLemmas
import Verif.MeasureProps
import Verif.RuleStatProps

/-!
# Further properties of the figures of a rule: median (C33), coverage (C37) and z-score (C38)
-/

namespace Verif.FigureProps

open Verif Rule Spec RFun RuleStatProps

/-! ## C33 -/

/-- **C33 (median).** The median which `aae` uses is the middle one of the sorted targets, or the mean of the two in the
middle. -/
theorem C33_median {y : List Rat} (hne : y ≠ []) : ∃ s : List Rat, s.Perm y ∧ s.Pairwise (· ≤ ·) ∧
    (∀ k, y.length = 2 * k + 1 → ∃ a, s[k]? = some a ∧ median (y.map .fin) = .fin a) ∧
    ∀ k, y.length = 2 * k + 2 → ∃ a b, s[k]? = some a ∧ s[k + 1]? = some b ∧ median (y.map .fin) = .fin ((a + b) / 2) := by
  refine ⟨y.insertionSort (· ≤ ·), List.perm_insertionSort _ _, List.pairwise_insertionSort _ _, ?_⟩
  have hlen := (List.perm_insertionSort (· ≤ ·) y).length_eq
  have hnan : (y.map Num.fin).any Num.isNaN = false := by
    rw [Bool.eq_false_iff]
    intro h
    obtain ⟨x, hx, h⟩ := List.any_eq_true.1 h
    obtain ⟨q, _, rfl⟩ := List.mem_map.1 hx
    cases h
  have hsort : (y.map Num.fin).insertionSort (fun a b => a.le b = true) = (y.insertionSort (· ≤ ·)).map Num.fin := by
    symm
    refine List.map_insertionSort (r := (· ≤ ·)) (s := fun a b : Num => a.le b = true) Num.fin y fun a _ b _ => ?_
    simp [Num.le]
  generalize y.insertionSort (· ≤ ·) = s at *
  constructor
  · intro k hk
    have hk' : k < s.length := by omega
    refine ⟨s[k], List.getElem?_eq_getElem hk', ?_⟩
    unfold median
    rw [hnan, hsort]
    simp only [Bool.false_eq_true, if_false, List.length_map]
    rw [if_pos (by omega), show s.length / 2 = k by omega, List.getElem?_map, List.getElem?_eq_getElem hk']
    rfl
  · intro k hk
    have hk1 : k < s.length := by omega
    have hk2 : k + 1 < s.length := by omega
    refine ⟨s[k], s[k + 1], List.getElem?_eq_getElem hk1, List.getElem?_eq_getElem hk2, ?_⟩
    unfold median
    rw [hnan, hsort]
    simp only [Bool.false_eq_true, if_false, List.length_map]
    rw [if_neg (by omega), show s.length / 2 - 1 = k by omega, ← List.map_drop, ← List.map_take]
    have : (s.drop k).take 2 = [s[k], s[k + 1]] := by
      rw [List.drop_eq_getElem_cons hk1, List.take_succ_cons, List.drop_eq_getElem_cons hk2, List.take_succ_cons, List.take_zero]
    rw [this, mean_fin (by simp)]
    simp [meanOf]

example : median ([5, 1, 2, 10].map .fin) = .fin (7 / 2) ∧ median ([5, 1, 2].map .fin) = .fin 2 := by decide +kernel

/-! ## C37 -/

/-- **C37 (coverage).** For a rule made by the constructor, after any history of calls in which no coverage is assigned, the
coverage is the fraction of activated points; it lies between 0 and 1, is 0 exactly when no point is activated and 1 exactly
when all are.  Missing: histories with an assignment, see `C37_assigned_false`. -/
theorem C37_coverage_partial (E : Env) (cond : Cond) (act : Option (List Nat)) {ops : List (Env × Op)}
    (h : ∀ p ∈ ops, ∀ v, p.2 ≠ .setCoverage v) {u : List Bool} (hne : u ≠ [])
    (ha : (play (make E cond act).2 ops).act = some (arr u)) :
    ∃ q : Rat, (play (make E cond act).2 ops).getCoverage = .ok (.num (.fin q)) ∧ q * u.length = u.count true ∧
      0 ≤ q ∧ q ≤ 1 ∧ (q = 0 ↔ ∀ b ∈ u, b = false) ∧ (q = 1 ↔ ∀ b ∈ u, b = true) := by
  have hpos : (0 : Rat) < u.length := by
    have := List.length_pos_iff.2 hne
    exact_mod_cast this
  have hle : ((u.count true : Nat) : Rat) ≤ u.length := by exact_mod_cast List.count_le_length
  refine ⟨(u.count true : Rat) / u.length, ?_, div_mul_cancel₀ _ hpos.ne', by positivity, (div_le_one hpos).2 hle, ?_, ?_⟩
  · unfold getCoverage
    rw [ha, play_fresh (make_fresh E cond act) h]
    have hl : (arr u).length = u.length := by simp [arr]
    simp only [hl, nones_arr]
    rw [if_neg (by simpa using hne)]
  · rw [div_eq_zero_iff, or_iff_left hpos.ne', Nat.cast_eq_zero, List.count_eq_zero]
    constructor
    · intro h b hb
      cases b
      · rfl
      · exact absurd hb h
    · intro h hb
      exact absurd (h _ hb) (by simp)
  · rw [div_eq_one_iff_eq hpos.ne', Nat.cast_inj, List.count_eq_length]
    exact ⟨fun h b hb => (h b hb).symm, fun h b hb => (h b hb).symm⟩

/-- **C37 (activation after fit).** `fit` with features gives the rule the vector of its condition on these features, so that
the coverage is the fraction of rows which satisfy the condition. -/
theorem C37_fit {E : Env} {y : List Label} {xs : Xs} {force : Bool} {kw : Kw} {r r' : Rule} {u : List Bool} (hx : xs.length ≠ 0)
    (h : fit E y (some xs) force kw r = (.ok (), r')) (hu : r.evaluateActivation E xs = .ok (arr u)) (hne : u ≠ []) :
    r'.getCoverage = .ok (.num (.fin ((u.count true : Rat) / u.length))) := by
  obtain ⟨r1, r2, r3, h1, h2, h3, rfl⟩ := fit_steps (show Runs r (some xs) from hx) h
  obtain ⟨v, hv, hd⟩ := calcActivation_ok h1 hx
  rw [hu] at hv
  cases hv
  have key : ∀ {r1 r2 : Rule}, attrLoop E (calcTrain E y kw) force (trainAttrs E.kind) r1 = (.ok (), r2) →
      r1.act = r2.act := by
    intro r1 r2 h
    exact (act_attrLoop E (act_calcTrain E y kw) force _ r1).symm.trans (by rw [h])
  have e1 : r1.act = some (arr u) := congrArg Rule.act hd
  have e2 : r1.actCoverage = none := congrArg Rule.actCoverage hd
  have e3 : r3.act = some (arr u) := by
    have := congrArg Rule.act (checkAllIfGood_data E r2)
    rw [h3] at this
    exact this.trans ((key h2).symm.trans e1)
  have e4 : r3.actCoverage = none := by
    have := fresh_attrLoop E (fresh_calcTrain E y kw) force (trainAttrs E.kind) r1 e2
    rw [h2] at this
    have := fresh_checkAllIfGood E r2 this
    rw [h3] at this
    exact this
  unfold getCoverage
  simp only [e3, e4, nones_arr]
  have hl : (arr u).length = u.length := by simp [arr]
  rw [hl, if_neg (by simpa using hne)]

/-- Three rows out of four satisfy the condition; evaluated on other rows with `recompute_activation`, one out of four. -/
example :
    let E := RuleProps.someEnv .regression
    let y := [Label.num (.fin 1), .num (.fin 2), .num (.fin 3), .num (.fin 3)]
    let r := (make E RuleProps.someCond none).2
    let r1 := play r [(E, .fit y (some RuleProps.someXs) false {})]
    let r2 := play r [(E, .fit y (some RuleProps.someXs) false {}), (E, .eval y (some RuleProps.farXs) true false {})]
    r1.act = some (arr [true, true, false, true]) ∧ r1.getCoverage = .ok (.num (.fin (3 / 4))) ∧
      r2.act = some (arr [true, false, false, false]) ∧ r2.getCoverage = .ok (.num (.fin (1 / 4))) := by
  decide +kernel

/-- **C37 is false after an assignment:** the assigned coverage stays, also when it is not a fraction. -/
theorem C37_assigned_false :
    let E := RuleProps.someEnv .regression
    let r := (make E RuleProps.someCond (some (arr [true, false]))).2
    (play r [(E, .setCoverage (.num (.fin 7)))]).getCoverage = .ok (.num (.fin 7)) ∧
      (play r [(E, .setCoverage (.num (.fin 7)))]).act = some (arr [true, false]) := by
  decide +kernel

/-! ## C38 -/

/-- **C38 (z-score).** After a `fit` which does not raise, of a rule which is still good (or with `force_if_not_good`), working with
the activation vector `u`: the z-score is the distance of the prediction to the mean of all targets, divided by the square root
of horizon over number of activated points and by the standard deviation of all targets; it is NaN when no point is activated.
`a` and `b` are the values of numpy's square root. -/
theorem C38_zscore {E : Env} {y : List (Option Rat)} {xs : Option Xs} {force : Bool} {kw : Kw} {r r' : Rule} {u : List Bool}
    (hk : E.kind = .regression) (hx : Runs r xs) (hu : Uses E r xs (arr u))
    (h : fit E (targets y) xs force kw r = (.ok (), r')) (hg : r'.good = true ∨ force = true) :
    (u.count true = 0 → r'.zscore = .num .nan) ∧
    ∀ horizon a b m : Rat, kw.horizon = .fin horizon → u.count true ≠ 0 → present y ≠ [] →
      E.sqrt (.fin (horizon / u.count true)) = .fin a → E.sqrt (.fin (populationVariance (present y))) = .fin b → a * b ≠ 0 →
      r'.prediction = .label (.num (.fin m)) → r'.zscore = .num (.fin (|m - meanOf (present y)| / (a * b))) := by
  obtain ⟨v, ys, m', var, hv, hys, hm, -, hd⟩ := fit_regression hk hx h hg
  have ev : v = arr u := by
    cases xs with
    | some x => exact Except.ok.inj (hv.symm.trans hu)
    | none => exact Option.some.inj (hv.symm.trans hu)
  subst ev
  rw [targets, numbers_ofOption] at hys
  cases hys
  have p1 : r'.prediction = .label (.num m') := congrArg Rule.prediction hd
  have p2 : r'.zscore = .num (zscoreExternal E.sqrt m' (nones (arr u)) (y.map Num.ofOption) kw.horizon) :=
    congrArg Rule.zscore hd
  rw [p2]
  constructor
  · intro h0
    rw [zscoreExternal, nones_arr, if_pos h0]
  · intro horizon a b m hh h0 hne ha hb hab hp
    rw [p1] at hp
    cases hp
    have hc : ((u.count true : Nat) : Rat) ≠ 0 := by exact_mod_cast h0
    have hmean : Num.nanmean (y.map Num.ofOption) = .fin (meanOf (present y)) := by
      rw [Num.nanmean, dropna_ofOption, mean_fin hne]
    rw [zscoreExternal, nones_arr, if_neg h0, nanvar_population hne, hmean, hh, hb]
    have hdiv : Num.div (.fin horizon) (.fin (u.count true : Nat)) = .fin (horizon / (u.count true : Nat)) := by
      simp [Num.div, hc]
    rw [hdiv, ha]
    simp [Num.sub, Num.add, Num.neg, Num.abs, Num.mul, Num.div, hab, ← sub_eq_add_neg]

/-- An environment whose square root is right for the numbers of the example -/
def rootEnv : Env := { RuleProps.someEnv .regression with
  sqrt := fun x => if x.beq (.fin 4) then .fin 2 else if x.beq (.fin 0) then .fin 0 else .fin 1 }

/-- Three activated points out of four: horizon 12 over 3 points, prediction 2, targets of mean 1 and variance 4. -/
example :
    let y : List (Option Rat) := [some 1, some 3, some (-2), some 2]
    let r := (make rootEnv RuleProps.someCond none).2
    let r' := (fit rootEnv (targets y) (some RuleProps.someXs) false { horizon := .fin 12 } r).2
    (fit rootEnv (targets y) (some RuleProps.someXs) false { horizon := .fin 12 } r).1 = .ok () ∧ r'.good = true ∧
      meanOf (present y) = 1 ∧ r'.prediction = .label (.num (.fin 2)) ∧ r'.zscore = .num (.fin (1 / 2)) := by
  decide +kernel

end Verif.FigureProps
