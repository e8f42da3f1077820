import Verif.CriterionLemmas
import Verif.PredictProps

/-!
# Properties of the criterion and of the set sizes of rulesets
-/

namespace Verif.RuleSetProps

open Verif Spec Vote RuleSet

/-! ## C42 -/

/-- **C42 (mse).** For a ruleset of regression rules whose predictions are `p` (missing where no rule votes), the criterion computed
with `criterion_method="mse"` is the mean of the squared differences with the targets, where both are present.  Nothing changes besides the criterion and what
`predict` changes (see C22). -/
theorem C42_mse {R : RsEnv} {s t : RuleSet} {xs : Option Xs} {w : Option WeightsArg} {kw : Rule.Kw} {p y : List (Option Rat)}
    (hne : s.rules ≠ []) (hk : s.ruleType = some .regression) (hm : kw.criterionMethod = some "mse")
    (hp : predict R xs w s = (.ok (p.map fun q => .label (.num (Num.ofOption q))), t)) (hl : p.length = y.length)
    (hb : both p y ≠ []) :
    calcCriterion R (y.map fun q => .num (Num.ofOption q)) xs w kw s =
      (.ok (), { t with criterion := .num (.fin (meanOf ((both p y).map fun x => (x.1 - x.2) ^ 2))) }) := by
  have hp0 : p ≠ [] := fun e => hb (by rw [e]; rfl)
  refine calcCriterion_regression hne hk hp0 hp ?_
  rw [hm, Option.getD_some, RFun.regressionCriterion, if_pos rfl, MeasureProps.mse_spec hl, if_neg hb]

/-- **C42 (other measures).** With `criterion_method="mae"`, the mean of the absolute differences; with `"mae_norm"` and `"aae"`, what these measures
(C33) give for the predictions and the targets; with another name, `ValueError`. -/
theorem C42_measure {R : RsEnv} {s t : RuleSet} {xs : Option Xs} {w : Option WeightsArg} {kw : Rule.Kw} {p y : List (Option Rat)}
    (hne : s.rules ≠ []) (hk : s.ruleType = some .regression)
    (hp : predict R xs w s = (.ok (p.map fun q => .label (.num (Num.ofOption q))), t)) (hl : p.length = y.length)
    (hb : both p y ≠ []) :
    (kw.criterionMethod = some "mae" → calcCriterion R (y.map fun q => .num (Num.ofOption q)) xs w kw s =
      (.ok (), { t with criterion := .num (.fin (meanOf ((both p y).map fun x => |x.1 - x.2|))) })) ∧
    (kw.criterionMethod = some "mae_norm" → ∀ c, RFun.maeNorm (p.map Num.ofOption) (y.map Num.ofOption) = .ok c →
      calcCriterion R (y.map fun q => .num (Num.ofOption q)) xs w kw s = (.ok (), { t with criterion := .num c })) ∧
    (kw.criterionMethod = some "aae" → ∀ c, RFun.aae (p.map Num.ofOption) (y.map Num.ofOption) = .ok c →
      calcCriterion R (y.map fun q => .num (Num.ofOption q)) xs w kw s = (.ok (), { t with criterion := .num c })) ∧
    ∀ m, kw.criterionMethod = some m → m ∉ ["mse", "mse_norm", "mae", "mae_norm", "aae"] →
      (calcCriterion R (y.map fun q => .num (Num.ofOption q)) xs w kw s).1 = .error .valueError := by
  have hp0 : p ≠ [] := fun e => hb (by rw [e]; rfl)
  refine ⟨fun hm => ?_, fun hm c hc => ?_, fun hm c hc => ?_, fun m hm hn => ?_⟩
  · refine calcCriterion_regression hne hk hp0 hp ?_
    rw [hm, Option.getD_some, RFun.regressionCriterion, if_neg (by decide), if_neg (by decide), if_pos rfl, MeasureProps.mae_spec hl, if_neg hb]
  · refine calcCriterion_regression hne hk hp0 hp ?_
    rw [hm, Option.getD_some, RFun.regressionCriterion, if_neg (by decide), if_neg (by decide), if_neg (by decide), if_pos rfl, hc]
  · refine calcCriterion_regression hne hk hp0 hp ?_
    rw [hm, Option.getD_some, RFun.regressionCriterion, if_neg (by decide), if_neg (by decide), if_neg (by decide), if_neg (by decide), if_pos rfl, hc]
  · have hc : RFun.regressionCriterion (kw.criterionMethod.getD "mse_norm") (p.map Num.ofOption) (y.map Num.ofOption) =
        .error .valueError := by
      simp only [List.mem_cons, List.not_mem_nil, or_false, not_or] at hn
      rw [hm, Option.getD_some, RFun.regressionCriterion, if_neg hn.1, if_neg hn.2.1, if_neg hn.2.2.1, if_neg hn.2.2.2.1, if_neg hn.2.2.2.2]
    rw [calcCriterion_raises hne hk hp0 hp hc]

/-- **C42 (default).** Without `criterion_method`, with targets which are all present and not all the same, the criterion is that mean
divided by the one of the constant prediction of the mean target.  With constant targets it is infinite, or NaN if they are predicted
exactly; with a missing target, or if nothing is predicted where there is a target, it is NaN. -/
theorem C42_default {R : RsEnv} {s t : RuleSet} {xs : Option Xs} {w : Option WeightsArg} {kw : Rule.Kw}
    {p y : List (Option Rat)} (hne : s.rules ≠ []) (hk : s.ruleType = some .regression) (hm : kw.criterionMethod = none)
    (hp : predict R xs w s = (.ok (p.map fun q => .label (.num (Num.ofOption q))), t)) (hp0 : p ≠ []) (hl : p.length = y.length) :
    ∃ c : Num, calcCriterion R (y.map fun q => .num (Num.ofOption q)) xs w kw s = (.ok (), { t with criterion := .num c }) ∧
      (none ∈ y → c = .nan) ∧ (both p y = [] → c = .nan) ∧
      ∀ ys, y = ys.map some → both p y ≠ [] →
        (populationVariance ys ≠ 0 → c = .fin (meanOf ((both p y).map fun x => (x.1 - x.2) ^ 2) / populationVariance ys)) ∧
        (populationVariance ys = 0 → (∀ x ∈ both p y, x.1 = x.2) → c = .nan) ∧
        (populationVariance ys = 0 → (∃ x ∈ both p y, x.1 ≠ x.2) → c = .inf) := by
  have hd : ∀ {c : Num}, RFun.mseNorm (p.map Num.ofOption) (y.map Num.ofOption) = .ok c →
      calcCriterion R (y.map fun q => .num (Num.ofOption q)) xs w kw s = (.ok (), { t with criterion := .num c }) := by
    intro c h
    refine calcCriterion_regression hne hk hp0 hp ?_
    rw [hm, Option.getD_none, RFun.regressionCriterion, if_neg (by decide), if_pos rfl, h]
  by_cases hmiss : none ∈ y
  · refine ⟨.nan, hd (MeasureProps.C33_mse_norm_missing hl hmiss), fun _ => rfl, fun _ => rfl, fun ys e => ?_⟩
    rw [e] at hmiss
    simp at hmiss
  · obtain ⟨ys, rfl⟩ : ∃ ys : List Rat, y = ys.map some := by
      refine ⟨y.filterMap id, ?_⟩
      clear hd hl
      induction y with
      | nil => rfl
      | cons a y ih =>
        cases a with
        | none => simp at hmiss
        | some q =>
          simp only [List.filterMap_cons_some (f := id) (b := q) rfl, List.map_cons]
          rw [← ih (fun h => hmiss (List.mem_cons_of_mem _ h))]
    have hl' : p.length = ys.length := by simpa using hl
    have hy0 : ys ≠ [] := fun e => hp0 (List.length_eq_zero_iff.1 (by rw [hl', e]; rfl))
    obtain ⟨a, b, h1, h2, h3⟩ := MeasureProps.C33_mse_norm_partial hl' hy0
    rw [← MeasureProps.map_some_ofOption, MeasureProps.mse_spec (by simpa using hl)] at h1
    rw [← MeasureProps.map_some_ofOption, MeasureProps.mse_spec (by simp), MeasureProps.both_const, if_neg (by simpa using hy0)] at h2
    rw [← MeasureProps.map_some_ofOption] at h3
    cases h1
    cases h2
    have e : meanOf ((ys.map fun t => (meanOf ys, t)).map fun x => (x.1 - x.2) ^ 2) = populationVariance ys := by
      unfold populationVariance
      rw [List.map_map, meanOf, List.length_map]
      congr 2
      apply List.map_congr_left
      intro t _
      simp only [Function.comp]
      ring
    rw [e] at h3
    refine ⟨_, hd h3, fun h => absurd h hmiss, fun h => by rw [if_pos h]; rfl, fun zs ez hb => ?_⟩
    have : zs = ys := List.map_injective_iff.2 (Option.some_injective _) ez.symm
    subst this
    rw [if_neg hb]
    have hpos : (0 : Rat) < (both p (zs.map some)).length := by
      exact_mod_cast List.length_pos_iff.2 hb
    refine ⟨fun hv => by simp only [Num.div, if_neg hv], fun hv hall => ?_, fun hv hex => ?_⟩
    · have h0 : meanOf ((both p (zs.map some)).map fun x => (x.1 - x.2) ^ 2) = 0 := by
        have : ((both p (zs.map some)).map fun x => (x.1 - x.2) ^ 2) = (both p (zs.map some)).map fun _ => (0 : Rat) :=
          List.map_congr_left fun x hx => by rw [hall x hx]; ring
        rw [this, meanOf]
        simp
      simp only [Num.div, if_pos hv, h0]
      rfl
    · have h0 : 0 < meanOf ((both p (zs.map some)).map fun x => (x.1 - x.2) ^ 2) := by
        rw [meanOf, List.length_map]
        apply div_pos _ hpos
        have hnn : ∀ z ∈ (both p (zs.map some)).map fun x => (x.1 - x.2) ^ 2, 0 ≤ z := by
          intro z hz
          obtain ⟨x, _, rfl⟩ := List.mem_map.1 hz
          positivity
        refine lt_of_le_of_ne (List.sum_nonneg hnn) fun h => ?_
        obtain ⟨x, hx, hxy⟩ := hex
        have := List.single_le_sum hnn _ (List.mem_map_of_mem (f := fun x : Rat × Rat => (x.1 - x.2) ^ 2) hx)
        rw [← h] at this
        have : (x.1 - x.2) ^ 2 = 0 := le_antisymm this (by positivity)
        exact hxy (sub_eq_zero.1 (by simpa using this))
      simp only [Num.div, if_pos hv, Num.infSign]
      simp [h0.ne', not_lt.2 h0.le]

/-- **C42 (no prediction).** When `predict` gives nothing, the criterion is NaN. -/
theorem C42_no_prediction {R : RsEnv} {s t : RuleSet} {xs : Option Xs} {w : Option WeightsArg} {kw : Rule.Kw} {y : List Label} {k : Kind}
    (hne : s.rules ≠ []) (hk : s.ruleType = some k) (hp : predict R xs w s = (.ok [], t)) :
    calcCriterion R y xs w kw s = (.ok (), { t with criterion := .num .nan }) := by
  have hlen : ¬ s.rules.length = 0 := fun e => hne (List.length_eq_zero_iff.1 e)
  unfold calcCriterion
  rw [Py.bind_ok (Py.get_run s)]
  simp only [if_neg hlen, hk]
  rw [Py.bind_ok hp]
  simp only [List.length_nil, if_true, Py.modify_run]

/-- The activation of the ruleset, for the features given or remembered -/
def ActivationIs (R : RsEnv) (s : RuleSet) (xs : Option Xs) (v : List Nat) : Prop :=
  match xs with
  | some x => evaluateSelf R (some x) s.rules = .ok (some v)
  | none => s.act = some v

/-- **C42 (success rate).** For a ruleset of classification rules whose predictions are `p` (NaN where the vote is not decided), the
criterion is the number of activated points with the right prediction, divided by the number of activated points with a
prediction. -/
theorem C42_success {R : RsEnv} {s : RuleSet} {xs : Option Xs} {w : Option WeightsArg} {kw : Rule.Kw} {p y : List Label}
    {u : List Bool} (hne : s.rules ≠ []) (hk : s.ruleType = some .classification)
    (hm : kw.criterionMethod = none ∨ kw.criterionMethod = some "success_rate")
    (hp : predict R xs w s = (.ok (p.map .label), s)) (hpl : p.length = u.length) (hl : y.length = u.length)
    (ha : ActivationIs R s xs (arr u)) (hc : ∀ q ∈ p, IsClass q ∨ q = .num .nan) (hy : ∀ t ∈ y, IsClass t)
    (hd : ∃ q ∈ activated u p, q ≠ .num .nan) :
    calcCriterion R y xs w kw s = (.ok (), { s with
      criterion := .num (.fin (((activated u (p.zip y)).countP (fun x => x.1 = x.2) : Rat) /
        (activated u p).countP (fun q => q ≠ .num .nan))) }) := by
  have hlen : ¬ s.rules.length = 0 := fun e => hne (List.length_eq_zero_iff.1 e)
  obtain ⟨q, hq, hqn⟩ := hd
  have hu : u ≠ [] := fun e => by rw [e] at hq; cases hq
  have hp0 : ¬ (p.map Cell.label).length = 0 := by
    rw [List.length_map, hpl]
    exact fun e => hu (List.length_eq_zero_iff.1 e)
  have hact : criterionActivation R xs s = (.ok (arr u), s) := by
    unfold criterionActivation
    cases xs with
    | some x =>
      simp only
      rw [Py.bind_ok (Py.get_run s), Py.bind_ok (s' := s) (by rw [Py.ofExcept_run, ha])]
      rfl
    | none =>
      have ha : s.act = some (arr u) := ha
      have hl0 : ¬ (arr u).length = 0 := by
        unfold arr
        rw [List.length_map]
        exact fun e => hu (List.length_eq_zero_iff.1 e)
      have hno : noActivation s = false := by
        unfold noActivation
        rw [ha]
        simp [hl0]
      have hw : whenSet noActivation (computeSelf R none) s = (.ok (), s) := by
        unfold whenSet
        rw [Py.bind_ok (Py.get_run s), hno]
        rfl
      simp only
      rw [Py.bind_ok hw, Py.bind_ok (Py.get_run s)]
      unfold available
      rw [ha]
      simp only [if_neg hl0]
      rfl
  have hcrit : RFun.classificationCriterionVector (kw.criterionMethod.getD "success_rate") (arr u) p y =
      .ok (some (.fin (((activated u (p.zip y)).countP (fun x => x.1 = x.2) : Rat) /
        (activated u p).countP (fun q => q ≠ .num .nan)))) := by
    have hmm : kw.criterionMethod.getD "success_rate" = "success_rate" := by rcases hm with e | e <;> rw [e] <;> rfl
    have hal : ¬ p.length ≠ (arr u).length := by
      unfold arr
      rw [List.length_map]
      exact fun e => e hpl
    unfold RFun.classificationCriterionVector
    rw [RFun.extract_arr hl, RFun.extract_arr hpl, hmm]
    simp only [bind, Except.bind, if_neg hal, if_true]
    exact successRateVector_eq (activated_length hpl hl) (fun q hq => hc q (activated_mem hq)) (fun t ht => hy t (activated_mem ht))
      ⟨q, hq, hqn⟩ (activated_zip hpl hl)
  unfold calcCriterion
  rw [Py.bind_ok (Py.get_run s)]
  simp only [if_neg hlen, hk]
  rw [Py.bind_ok hp]
  simp only [if_neg hp0]
  rw [Py.bind_ok (s' := s) (by rw [Py.ofExcept_run, labelsOfCells_label]), Py.bind_ok hact,
    Py.bind_ok (s' := s) (by rw [Py.ofExcept_run, hcrit]), Py.modify_run, hk]

/-- Predictions 2, 7/2 and none -/
def numberSet : RuleSet :=
  setWith .regression [VoteProps.voter 0 [1, 1, 0] (.num (.fin 2)), VoteProps.voter 1 [0, 1, 0] (.num (.fin 5))]

/-- Votes for red, for nothing and for blue; no rule is active at the last point. -/
def colourSet : RuleSet :=
  { setWith .classification [VoteProps.voter 0 [1, 1, 1, 0] (.text "red"), VoteProps.voter 1 [0, 1, 1, 0] (.text "blue"),
      VoteProps.voter 2 [0, 0, 1, 0] (.text "blue")] with act := some [1, 1, 1, 0] }

theorem numberSet_predict : predict someRs none none numberSet =
    (.ok ([some 2, some (7 / 2), none].map fun q => .label (.num (Num.ofOption q))), (predict someRs none none numberSet).2) :=
  Prod.ext (by decide +kernel) rfl

theorem colourSet_predict : predict someRs none none colourSet =
    (.ok ([.text "red", .num .nan, .text "blue", .num .nan].map .label), colourSet) :=
  by decide +kernel

/-- The theorems above on them -/
example :
    (calcCriterion someRs [.num (.fin 2), .num (.fin 4), .num (.fin 6)] none none { criterionMethod := some "mse" } numberSet).2.criterion =
      .num (.fin (1 / 8)) ∧
    (calcCriterion someRs [.num (.fin 2), .num (.fin 4), .num (.fin 6)] none none {} numberSet).2.criterion =
      .num (.fin (3 / 64)) ∧
    (calcCriterion someRs [.text "red", .text "red", .text "red", .text "red"] none none {} colourSet).2.criterion =
      .num (.fin (1 / 2)) := by
  have h1 := C42_mse (kw := { criterionMethod := some "mse" }) (y := [some 2, some 4, some 6]) (by simp [numberSet, setWith]) rfl rfl
    numberSet_predict rfl (by decide +kernel)
  obtain ⟨c, h2, -, -, hc⟩ := C42_default (kw := {}) (y := [some 2, some 4, some 6]) (by simp [numberSet, setWith]) rfl rfl
    numberSet_predict (by simp) rfl
  have hc := (hc [2, 4, 6] rfl (by decide +kernel)).1 (by decide +kernel)
  have h3 := C42_success (kw := {}) (u := [true, true, true, false]) (y := [.text "red", .text "red", .text "red", .text "red"])
    (by simp [colourSet, setWith]) rfl (Or.inl rfl) colourSet_predict rfl rfl rfl
    (by simp [IsClass]) (by simp [IsClass]) ⟨.text "red", by decide +kernel, by decide⟩
  refine ⟨?_, ?_, ?_⟩
  · exact (congrArg (fun x => x.2.criterion) h1).trans (congrArg (fun q => Thresholds.Attr.num (.fin q)) (by decide +kernel : _ = (1 / 8 : Rat)))
  · exact (congrArg (fun x => x.2.criterion) h2).trans (congrArg Thresholds.Attr.num (hc.trans (congrArg Num.fin (by decide +kernel : _ = (3 / 64 : Rat)))))
  · exact (congrArg (fun x => x.2.criterion) h3).trans (congrArg (fun q => Thresholds.Attr.num (.fin q)) (by decide +kernel : _ = (1 / 2 : Rat)))

/-- Other measures -/
example :
    (calcCriterion someRs [.num (.fin 2), .num (.fin 4), .num (.fin 6)] none none { criterionMethod := some "mae" } numberSet).2.criterion =
      .num (.fin (1 / 4)) ∧
    (calcCriterion someRs [.num (.fin 2), .num (.fin 4), .num (.fin 6)] none none { criterionMethod := some "aae" } numberSet).2.criterion =
      .num (.fin (3 / 16)) ∧
    (calcCriterion someRs [.num (.fin 2), .num (.fin 4), .num (.fin 6)] none none { criterionMethod := some "rmse" } numberSet).1 =
      .error .valueError := by
  decide +kernel

/-- Constant targets, and a missing target -/
example :
    (calcCriterion someRs [.num (.fin 2), .num (.fin 2), .num (.fin 2)] none none {} numberSet).2.criterion = .num .inf ∧
    (calcCriterion someRs [.num (.fin 2), .num .nan, .num (.fin 6)] none none {} numberSet).2.criterion = .num .nan := by
  decide +kernel

/-- Stacked activations without points -/
example : predict { someRs with stackedFit := true } none none { numberSet with stacked := some [("a", []), ("b", [])] } =
    (.ok [], { numberSet with stacked := some [("a", []), ("b", [])] }) := by
  decide +kernel

/-- **C42 (set sizes).** A `fit` which is not skipped notes the number of targets as train set size, an `eval` notes it as test set
size. -/
theorem C42_train_size {R : RsEnv} {y : List Label} {xs : Option Xs} {force : Bool} {kw : Rule.Kw} {s s' : RuleSet}
    {dropped : List Member} (hx : Fits s xs) (hne : s.rules ≠ []) (h : fit R y xs force kw s = (.ok dropped, s')) :
    s'.trainSize = .num (.fin y.length) := by
  rcases fit_ok h with ⟨-, -, h | h | ⟨h, h'⟩⟩ | ⟨l, s1, -, -, rfl, -⟩
  · rw [Option.any_eq_true] at h
    obtain ⟨x, hx1, hx2⟩ := h
    exact absurd (by simpa using hx2) (hx.1 x hx1)
  · exact absurd h hne
  · obtain ⟨m, hm, hf⟩ := hx.2 h
    rw [h' m hm] at hf
    cases hf
  · rfl

example : Fits unfitted (some RuleProps.someXs) ∧
    (fit someRs someY (some RuleProps.someXs) false {} unfitted).1.toOption.isSome = true ∧
    fittedRules.trainSize = .num (.fin 4) := ⟨unfitted_fits, by decide +kernel, by decide +kernel⟩

open Classical in
/-- **C42 (`eval`).** An `eval` which is not skipped notes the number of targets as test set size, and the criterion is the one
`calc_criterion` computes for the rules which are left: on the features given, or on the activations remembered when the new ones
are kept. -/
theorem C42_eval {R : RsEnv} {y : List Label} {xs : Option Xs} {keep : Bool} {w : Option WeightsArg} {force : Bool} {kw : Rule.Kw}
    {s s' : RuleSet} {dropped : List Member} (hx : ∀ x, xs = some x → x.length ≠ 0) (hne : s.rules ≠ [])
    (h : eval R y xs keep w force kw s = (.ok dropped, s')) :
    s'.testSize = .num (.fin y.length) ∧ ∃ l s1 s2,
      EachDone R (fun E => Rule.eval E y xs (keep || !(s.rules.all fun m => m.rule.fitted)) force kw) s.rules l ∧
      s1.rules = (l.filter fun m => Stays R.hasher l m) ∧
      calcCriterion R y (if keep || !(s.rules.all fun m => m.rule.fitted) then none else xs) w kw s1 = (.ok (), s2) ∧
      s'.criterion = s2.criterion := by
  rcases eval_ok h with ⟨-, -, h | h⟩ | ⟨l, s1, s2, keep', rfl, hl, ha, hc, rfl, -⟩
  · rw [Option.any_eq_true] at h
    obtain ⟨x, hx1, hx2⟩ := h
    exact absurd (by simpa using hx2) (hx x hx1)
  · exact absurd h hne
  · refine ⟨rfl, l, s1, s2, hl, ?_, hc, rfl⟩
    rcases (afterEval_ok (s := { s with rules := l }) ha).2 with ⟨hb, hr⟩ | hk
    · rw [hr]
      exact stays_none hb
    · exact keepRules_bad hk

/-- The criterion with features is the one of predictions with features. -/
example :
    let p := eval someRs someY (some (.arr ⟨1, [[.fin 0], [.fin 3], [.fin 4], [.fin 10]]⟩)) false none false
      { criterionMethod := some "mse" } fittedRules
    p.1.toOption.map (fun d => d.length) = some 0 ∧ p.2.testSize = .num (.fin 4) ∧ p.2.criterion = .num (.fin (37 / 24)) := by
  decide +kernel

end Verif.RuleSetProps
