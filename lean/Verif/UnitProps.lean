import Verif.UnitLemmas
import Verif.RuleFlagProps
import Mathlib.Data.Rat.Sqrt

/-!
# C69: the unit of the target does not matter
-/

namespace Verif.Units

open Verif Rule Spec RFun RuleStatProps RuleProps RuleFlagProps

/-! ## One rule -/

/-- **C69 (fit).** A regression rule is fitted twice, with the targets and with the targets in another unit (`a * t + b`, `0 < a`).  Then the
prediction is the first one in the other unit (missing if it was missing), the standard deviation is multiplied by `a`, and the z-score,
the activation and the number of points are the same; the sign is the same if the zero of the unit is (`b = 0`). -/
theorem C69_fit {E : Env} {y : List (Option Rat)} {xs : Option Xs} {force : Bool} {kw : Kw} {r r1 r2 : Rule} {u : List Bool} {a b : Rat}
    (hk : E.kind = .regression) (ha : 0 < a) (hs : Root E.sqrt a) (hx : Runs r xs) (hu : Uses E r xs (arr u)) (hl : y.length = u.length)
    (h1 : fit E (targets y) xs force kw r = (.ok (), r1)) (g1 : r1.good = true ∨ force = true)
    (h2 : fit E (targets (y.map (convert a b))) xs force kw r = (.ok (), r2)) (g2 : r2.good = true ∨ force = true) :
    (∃ p : Option Rat, r1.prediction = .label (.num (Num.ofOption p)) ∧ r2.prediction = .label (.num (Num.ofOption (convert a b p)))) ∧
      (∃ s : Option Rat, r1.std = .num (Num.ofOption s) ∧ r2.std = .num (Num.ofOption (convert a 0 s))) ∧
      r2.zscore = r1.zscore ∧ r2.act = r1.act ∧ r2.trainSize = r1.trainSize ∧ (b = 0 → r2.sign = r1.sign) := by
  obtain ⟨v1, ys1, m1, var1, hv1, e1, c1, w1, d1⟩ := fit_regression hk hx h1 g1
  obtain ⟨v2, ys2, m2, var2, hv2, e2, c2, w2, d2⟩ := fit_regression hk hx h2 g2
  have huse : ∀ v, Uses E r xs v → v = arr u := by
    intro v hv
    cases xs with
    | some x => exact Except.ok.inj (hv.symm.trans hu)
    | none => exact Option.some.inj (hv.symm.trans hu)
  obtain rfl := huse v1 hv1
  obtain rfl := huse v2 hv2
  rw [targets, numbers_ofOption] at e1 e2
  cases e1
  cases e2
  rw [conditionalMean_spec hl] at c1
  rw [conditionalMean_spec (by simpa using hl), activated_map, present_convert] at c2
  rw [conditionalVar_spec hl] at w1
  rw [conditionalVar_spec (by simpa using hl), activated_map, present_convert, List.length_map, List.length_map] at w2
  cases c1
  cases c2
  cases w1
  cases w2
  simp only [List.map_eq_nil_iff] at d2
  have hpred : ∃ p : Option Rat, (if present (activated u y) = [] then Num.nan else .fin (meanOf (present (activated u y)))) = Num.ofOption p ∧
      (if present (activated u y) = [] then Num.nan else .fin (meanOf ((present (activated u y)).map fun t => a * t + b))) =
        Num.ofOption (convert a b p) ∧ (present (activated u y) = [] → p = none) := by
    split
    · exact ⟨none, rfl, rfl, fun _ => rfl⟩
    · next hne => exact ⟨some (meanOf (present (activated u y))), rfl, by rw [meanOf_affine hne]; rfl, fun e => absurd e hne⟩
  obtain ⟨p, p1, p2, p3⟩ := hpred
  rw [p1] at d1
  rw [p2] at d2
  have hsub : present y = [] → present (activated u y) = [] := by
    intro e
    have hall : ∀ x ∈ y, x = none := by
      intro x hx
      cases x with
      | none => rfl
      | some q =>
        have : q ∈ present y := List.mem_filterMap.2 ⟨some q, hx, rfl⟩
        rw [e] at this
        cases this
    rw [present, List.filterMap_eq_nil_iff]
    intro x hx
    obtain ⟨⟨b, t⟩, hz, rfl⟩ := List.mem_map.1 hx
    exact hall _ (List.of_mem_zip (List.mem_filter.1 hz).1).2
  refine ⟨⟨p, (congrArg Rule.prediction d1 :), (congrArg Rule.prediction d2 :)⟩, ?_, ?_, ?_, ?_, ?_⟩
  · have hstd : ∀ t : Num, (t = .nan ∨ ∃ q : Rat, 0 ≤ q ∧ t = .fin q) → ∃ s : Option Rat, E.sqrt t = Num.ofOption s ∧
        E.sqrt (Num.mul (.fin (a * a)) t) = Num.ofOption (convert a 0 s) := by
      rintro t (rfl | ⟨q, hq, rfl⟩)
      · exact ⟨none, hs.nan, hs.nan⟩
      · obtain ⟨s, h1, h2⟩ := hs.fin q hq
        exact ⟨some s, h1, by simpa [convert, Num.ofOption, Num.mul] using h2⟩
    obtain ⟨s, s1, s2⟩ := hstd (if (activated u y).length = 1 then .fin 0 else if (present (activated u y)).length < 2 then .nan
        else .fin (varianceOf (present (activated u y)))) (by
      split
      · exact Or.inr ⟨0, le_rfl, rfl⟩
      · split
        · exact Or.inl rfl
        · next h => exact Or.inr ⟨_, varianceOf_nonneg (by omega), rfl⟩)
    refine ⟨s, ?_, ?_⟩
    · exact (congrArg Rule.std d1 :).trans (congrArg Thresholds.Attr.num s1)
    · refine (congrArg Rule.std d2 :).trans (Eq.trans ?_ (congrArg Thresholds.Attr.num s2))
      show Thresholds.Attr.num _ = _
      congr 2
      split
      · simp [Num.mul]
      · split
        · rfl
        · next h => rw [varianceOf_affine (by intro e; rw [e] at h; simp at h)]; rfl
  · refine (congrArg Rule.zscore d2 :).trans (Eq.trans ?_ (congrArg Rule.zscore d1 :).symm)
    exact congrArg Thresholds.Attr.num (zscore_convert ha hs p _ y (fun e => p3 (hsub e)) _)
  · exact (congrArg Rule.act d2 :).trans (congrArg Rule.act d1 :).symm
  · refine (congrArg Rule.trainSize d2 :).trans (Eq.trans ?_ (congrArg Rule.trainSize d1 :).symm)
    show Thresholds.Attr.num _ = Thresholds.Attr.num _
    simp [targets]
  · rintro rfl
    refine (congrArg Rule.sign d2 :).trans (Eq.trans ?_ (congrArg Rule.sign d1 :).symm)
    show Thresholds.Attr.str _ = Thresholds.Attr.str _
    cases p with
    | none => rfl
    | some q =>
      have h1 : a * q ≤ 0 ↔ q ≤ 0 := by
        constructor
        · intro h; by_contra h'; nlinarith
        · intro h; nlinarith
      have h2 : 0 ≤ a * q ↔ 0 ≤ q := by
        constructor
        · intro h; by_contra h'; nlinarith
        · intro h; nlinarith
      simp [convert, Num.ofOption, Num.lt, Num.le, h1, h2]

/-- The root of the squares of rational numbers (0 for the others) -/
def exactRoot : Num → Num
  | .fin t => .fin (if Rat.sqrt t * Rat.sqrt t = t then Rat.sqrt t else 0)
  | x => x

theorem exactRoot_root {a : Rat} (ha : 0 < a) : Root exactRoot a := by
  refine ⟨rfl, fun t _ => ⟨_, rfl, ?_⟩⟩
  simp only [exactRoot]
  by_cases h : Rat.sqrt t * Rat.sqrt t = t
  · have hq : a * a * t = (a * Rat.sqrt t) * (a * Rat.sqrt t) := by
      rw [mul_mul_mul_comm, h]
    have hn : 0 ≤ a * Rat.sqrt t := mul_nonneg ha.le (Rat.sqrt_nonneg t)
    rw [if_pos h, hq, Rat.sqrt_eq, abs_of_nonneg hn, if_pos rfl]
  · rw [if_neg h, if_neg, mul_zero]
    intro h'
    refine h ((Rat.exists_mul_self t).1 ⟨Rat.sqrt (a * a * t) / a, ?_⟩)
    rw [div_mul_div_comm, h', mul_div_cancel_left₀ _ (mul_pos ha ha).ne']

/-- An environment with this root -/
def exactEnv : Env := { someEnv .regression with sqrt := exactRoot }

/-- Four temperatures in degrees Celsius, one missing -/
def celsius : List (Option Rat) := [some 10, none, some 40, some 20]

/-- The rule is active at the first, second and last points: the prediction is 15 degrees Celsius, and 59 degrees Fahrenheit. -/
example :
    let r1 := fit exactEnv (targets celsius) (some someXs) false {} newRule
    let r2 := fit exactEnv (targets (celsius.map (convert (9 / 5) 32))) (some someXs) false {} newRule
    Root exactEnv.sqrt (9 / 5) ∧ Runs newRule (some someXs) ∧ (∃ u, Uses exactEnv newRule (some someXs) (arr u) ∧ celsius.length = u.length) ∧
      r1.1 = .ok () ∧ r2.1 = .ok () ∧ r1.2.good = true ∧ r2.2.good = true ∧
      r1.2.prediction = .label (.num (.fin 15)) ∧ r2.2.prediction = .label (.num (.fin 59)) := by
  refine ⟨exactRoot_root (by norm_num), ?_, ⟨[true, true, false, true], ?_, rfl⟩, ?_⟩
  · show someXs.length ≠ 0
    decide
  · show _ = _
    decide +kernel
  · decide +kernel

/-- A standard deviation and a z-score which are not zero -/
example :
    let y : List (Option Rat) := [some 1, some 3, some (-2), some 2]
    let r1 := fit exactEnv (targets y) (some someXs) false { horizon := .fin 12 } newRule
    let r2 := fit exactEnv (targets (y.map (convert (9 / 5) 32))) (some someXs) false { horizon := .fin 12 } newRule
    r1.2.zscore = r2.2.zscore ∧ r1.2.std = .num (.fin 1) ∧ r2.2.std = .num (.fin (9 / 5)) := by
  decide +kernel

/-- **C69 (eval).** Two regression rules with the same activation, one of which predicts in the other unit; they are evaluated with the same
targets, each in its unit.  Then the criterion `mse` is multiplied by `a²`, `mae` by `a`, and the relative criteria `mse_norm` (the default),
`mae_norm` and `aae` are the same. -/
theorem C69_eval {E : Env} {y : List (Option Rat)} {xs : Option Xs} {rc force : Bool} {kw : Kw} {r q r' q' : Rule} {u : List Bool} {a b : Rat}
    {p : Option Rat} (hk : E.kind = .regression) (ha : 0 < a) (hx : ∀ x, xs = some x → x.length ≠ 0)
    (hp : r.prediction = .label (.num (Num.ofOption p))) (hq : q.prediction = .label (.num (Num.ofOption (convert a b p))))
    (hf : r.length ≠ 0) (hf' : q.length ≠ 0) (hu : Uses E r xs (arr u)) (hu' : Uses E q xs (arr u)) (hne : u ≠ [])
    (h1 : eval E (targets y) xs rc force kw r = (.ok (), r')) (g1 : r'.good = true ∨ force = true)
    (h2 : eval E (targets (y.map (convert a b))) xs rc force kw q = (.ok (), q')) (g2 : q'.good = true ∨ force = true) :
    ∃ c : Num, r'.criterion = .num c ∧
      q'.criterion = .num (Num.mul (.fin (factor a (kw.criterionMethod.getD "mse_norm"))) c) := by
  have key : ∀ {r r' : Rule} {p : Option Rat} {y : List (Option Rat)}, r.prediction = .label (.num (Num.ofOption p)) → r.length ≠ 0 →
      Uses E r xs (arr u) → eval E (targets y) xs rc force kw r = (.ok (), r') → r'.good = true ∨ force = true →
      ∃ c, regressionCriterion (kw.criterionMethod.getD "mse_norm")
        ((u.map fun b => if b then p else none).map Num.ofOption) (y.map Num.ofOption) = .ok c ∧ r'.criterion = .num c := by
    intro r r' p y hp hf hu h hg
    obtain ⟨v, pr, ps, ys, c, hv, h1, h2, h3, h4, h5⟩ := eval_regression hk hx h hg
    have ev : v = arr u := by
      cases xs with
      | some x => exact Except.ok.inj (hv.symm.trans hu)
      | none => exact Option.some.inj (hv.symm.trans hu)
    subst ev
    rw [targets, numbers_ofOption] at h3
    cases h3
    have hgp : r.getPrediction E = .ok (some (.num (Num.ofOption p))) := by
      simp only [getPrediction, hp]
    rw [(RuleProps.C18_vector_partial hgp hf hne).1] at h1
    cases h1
    have hpred : (u.map fun b => if b then Label.num (Num.ofOption p) else .num .nan) =
        (u.map fun b => if b then p else none).map fun q => Label.num (Num.ofOption q) := by
      rw [List.map_map]
      apply List.map_congr_left
      rintro b -
      cases b <;> rfl
    rw [Option.getD_some, hpred, numbers_ofOption] at h2
    cases h2
    exact ⟨c, h4, h5⟩
  obtain ⟨c, c1, c2⟩ := key hp hf hu h1 g1
  obtain ⟨d, d1, d2⟩ := key hq hf' hu' h2 g2
  have hmap : (u.map fun t => if t then convert a b p else none) = (u.map fun t => if t then p else none).map (convert a b) := by
    rw [List.map_map]
    apply List.map_congr_left
    rintro t -
    cases t <;> rfl
  rw [hmap, criterion_convert ha, c1] at d1
  cases d1
  exact ⟨c, c2, d2⟩

/-- The criteria of the rule of the last example, by name of the method: `mse` and `mae` change with the unit, the relative ones do not. -/
example :
    let y : List (Option Rat) := [some 1, some 3, some (-2), some 4]
    let r1 := (fit exactEnv (targets y) (some someXs) false {} newRule).2
    let r2 := (fit exactEnv (targets (y.map (convert 10 7))) (some someXs) false {} newRule).2
    let c := fun m r y => (eval exactEnv (targets y) (some someXs) true false { criterionMethod := some m } r).2.criterion
    (eval exactEnv (targets (y.map (convert 10 7))) (some someXs) true false { criterionMethod := some "mse" } r2).1 = .ok () ∧
    c "mse" r2 (y.map (convert 10 7)) = .num (.fin (1400 / 9)) ∧ c "mse" r1 y = .num (.fin (14 / 9)) ∧
      c "mae" r2 (y.map (convert 10 7)) = .num (.fin (100 / 9)) ∧ c "mae" r1 y = .num (.fin (10 / 9)) ∧
      c "mse_norm" r2 (y.map (convert 10 7)) = c "mse_norm" r1 y ∧ c "mse_norm" r1 y = .num (.fin (8 / 27)) ∧
      c "aae" r2 (y.map (convert 10 7)) = c "aae" r1 y ∧ c "mae_norm" r1 y = .num .inf := by
  decide +kernel

/-- **C69 (fit and eval).** The whole cycle: fitted on some points and evaluated on others, in either unit, the criterion is the same up to
its unit. -/
theorem C69_cycle {E : Env} {y y' : List (Option Rat)} {xs : Option Xs} {xs' : Xs} {rc force force' : Bool} {kw kw' : Kw}
    {r r1 r2 r1' r2' : Rule} {u u' : List Bool} {a b : Rat}
    (hk : E.kind = .regression) (ha : 0 < a) (hs : Root E.sqrt a) (hx : Runs r xs) (hu : Uses E r xs (arr u)) (hl : y.length = u.length)
    (hf : r.length ≠ 0) (hx' : xs'.length ≠ 0) (hu' : Uses E r (some xs') (arr u')) (hne : u' ≠ [])
    (h1 : fit E (targets y) xs force kw r = (.ok (), r1)) (g1 : r1.good = true ∨ force = true)
    (h2 : fit E (targets (y.map (convert a b))) xs force kw r = (.ok (), r2)) (g2 : r2.good = true ∨ force = true)
    (e1 : eval E (targets y') (some xs') rc force' kw' r1 = (.ok (), r1')) (k1 : r1'.good = true ∨ force' = true)
    (e2 : eval E (targets (y'.map (convert a b))) (some xs') rc force' kw' r2 = (.ok (), r2')) (k2 : r2'.good = true ∨ force' = true) :
    ∃ c : Num, r1'.criterion = .num c ∧
      r2'.criterion = .num (Num.mul (.fin (factor a (kw'.criterionMethod.getD "mse_norm"))) c) := by
  obtain ⟨⟨p, p1, p2⟩, -⟩ := C69_fit hk ha hs hx hu hl h1 g1 h2 g2
  obtain ⟨_, _, _, _, -, -, -, -, d1⟩ := fit_regression hk hx h1 g1
  obtain ⟨_, _, _, _, -, -, -, -, d2⟩ := fit_regression hk hx h2 g2
  have c1 : r1.cond = r.cond := (congrArg Rule.cond d1 :)
  have c2 : r2.cond = r.cond := (congrArg Rule.cond d2 :)
  refine C69_eval hk ha (by rintro x ⟨⟩; exact hx') p1 p2 ?_ ?_ ?_ ?_ hne e1 k1 e2 k2
  · simpa [Rule.length, c1] using hf
  · simpa [Rule.length, c2] using hf
  · simpa [Uses, evaluateActivation, c1] using hu'
  · simpa [Uses, evaluateActivation, c2] using hu'

/-- The hypotheses are met: the example before `C69_cycle`, where the criteria are those of rules fitted before. -/
example :
    let y : List (Option Rat) := [some 1, some 3, some (-2), some 4]
    let r1 := (fit exactEnv (targets y) (some someXs) false {} newRule).2
    let r2 := (fit exactEnv (targets (y.map (convert 10 7))) (some someXs) false {} newRule).2
    newRule.length ≠ 0 ∧ r1.good = true ∧ r2.good = true ∧
      (eval exactEnv (targets y) (some someXs) true false {} r1).1 = .ok () ∧ (eval exactEnv (targets y) (some someXs) true false {} r1).2.good = true ∧
      (eval exactEnv (targets (y.map (convert 10 7))) (some someXs) true false {} r2).1 = .ok () ∧
      (eval exactEnv (targets (y.map (convert 10 7))) (some someXs) true false {} r2).2.good = true := by
  decide +kernel

end Verif.Units
