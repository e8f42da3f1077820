import Verif.InsideLemmas
import Verif.FitProps
import Verif.RuleFlagProps
import Verif.RulePredictProps
import Verif.SetProps

/-!
# C78: only the points inside a rule decide what it predicts
-/

namespace Verif.InsideProps

open Verif Rule Spec RFun RowOrder Inside

/-- Both fits use the targets inside. -/
theorem both_extract {E : Env} {xs xs' : Xs} {y y' : List Label} {r : Rule} {v v' : List Nat} (h : SameInside r.cond xs y xs' y')
    (hv : r.evaluateActivation E xs = .ok v) (hv' : r.evaluateActivation E xs' = .ok v') :
    v.length = y.length ∧ v'.length = y'.length ∧ extract v y = .ok (targetsInside r.cond xs y) ∧
      extract v' y' = .ok (targetsInside r.cond xs' y') := by
  obtain ⟨a, b⟩ := extract_inside hv h.talks h.length
  obtain ⟨a', b'⟩ := extract_inside hv' h.talks' h.length'
  exact ⟨a, a', b, b'⟩

theorem points {c : Cond} {xs xs' : Xs} {y y' : List β} (h : SameInside c xs y xs' y') : xs.length ≠ 0 ∧ xs'.length ≠ 0 := by
  rw [← RuleSet.pointsOf_length, ← RuleSet.pointsOf_length, h.length, h.length']
  exact ⟨by simpa using h.some_points, by simpa using h.some_points'⟩

/-- **C78 (regression).**  A rule is fitted to two data sets which have the same targets at the points inside the hyper-rectangle of the
rule.  If both fits go through and the rule is good after both (or with `force_if_not_good`), it gets the same prediction, sign and
standard deviation.  The points outside, their targets and their number, do not matter. -/
theorem C78_regression {E : Env} {xs xs' : Xs} {y y' : List Label} {force : Bool} {kw kw' : Kw} {r r1 r2 : Rule} (hE : E.kind = .regression)
    (h : SameInside r.cond xs y xs' y') (h1 : fit E y (some xs) force kw r = (.ok (), r1))
    (h2 : fit E y' (some xs') force kw' r = (.ok (), r2)) (hg : r1.good = true ∧ r2.good = true ∨ force = true) :
    r1.prediction = r2.prediction ∧ r1.sign = r2.sign ∧ r1.std = r2.std := by
  obtain ⟨hx, hx'⟩ := points h
  obtain ⟨v, ys, m, var, hv, hys, hm, hvar, hd⟩ := fit_regression hE (show Runs r (some xs) from hx) h1 (hg.imp_left And.left)
  obtain ⟨v', ys', m', var', hv', hys', hm', hvar', hd'⟩ := fit_regression hE (show Runs r (some xs') from hx') h2 (hg.imp_left And.right)
  obtain ⟨l1, l2, e1, e2⟩ := both_extract h hv hv'
  have q1 := Verif.RFun.numbers_eq hys
  have q2 := Verif.RFun.numbers_eq hys'
  subst q1 q2
  have hp := h.inside
  obtain ⟨k, f1, g1⟩ := extract_numbers e1 (by simpa using l1)
  obtain ⟨k', f2, g2⟩ := extract_numbers e2 (by simpa using l2)
  rw [g1, g2] at hp
  have hp := perm_numbers hp
  have em : m = m' := Except.ok.inj (hm.symm.trans ((mean_of_extract f1 f2 hp).trans hm'))
  have ev : var = var' := Except.ok.inj (hvar.symm.trans ((var_of_extract f1 f2 hp).trans hvar'))
  subst em ev
  exact ⟨(congrArg Rule.prediction hd :).trans (congrArg Rule.prediction hd' :).symm, (congrArg Rule.sign hd :).trans (congrArg Rule.sign hd' :).symm,
    (congrArg Rule.std hd :).trans (congrArg Rule.std hd' :).symm⟩

/-- **C78 (classes).**  The same for a classification rule: it gets the same frequencies of classes and predicts the same class. -/
theorem C78_classes {E : Env} {xs xs' : Xs} {y y' : List Label} {force : Bool} {kw kw' : Kw} {r r1 r2 : Rule} (hE : E.kind = .classification)
    (h : SameInside r.cond xs y xs' y') (h1 : fit E y (some xs) force kw r = (.ok (), r1))
    (h2 : fit E y' (some xs') force kw' r = (.ok (), r2)) (hg : r1.good = true ∧ r2.good = true ∨ force = true) :
    r1.prediction = r2.prediction ∧ r1.getPrediction E = r2.getPrediction E := by
  obtain ⟨hx, hx'⟩ := points h
  obtain ⟨v, p, hv, hp, hd⟩ := fit_classification hE (show Runs r (some xs) from hx) h1 (hg.imp_left And.left)
  obtain ⟨v', p', hv', hp', hd'⟩ := fit_classification hE (show Runs r (some xs') from hx') h2 (hg.imp_left And.right)
  obtain ⟨-, -, e1, e2⟩ := both_extract h hv hv'
  have ep : p = p' := Except.ok.inj (hp.symm.trans ((classes_of_extract e1 e2 h.inside).trans hp'))
  subst ep
  have e := (congrArg Rule.prediction hd :).trans (congrArg Rule.prediction hd' :).symm
  refine ⟨e, ?_⟩
  unfold getPrediction
  have e' : r1.prediction = r2.prediction := e
  rw [e']

/-- The measure of one rule which predicts the number `x`: from the activated targets only -/
theorem measure_inside {E : Env} {xs : Xs} {ys : List Num} {r : Rule} {v : List Nat} {x c : Num} {p : Option (List Label)} {ps : List Num}
    {method : String} (hm : method = "mse" ∨ method = "mae") (hx : r.getPrediction E = .ok (some (.num x))) (hl : r.length ≠ 0)
    (hc : TalksAbout r.cond xs) (hn : (pointsOf xs).length = ys.length) (hv : r.evaluateActivation E xs = .ok v)
    (hp : r.calcPredictionVector E (some v) = .ok p) (hps : numbers (p.getD []) = .ok ps) (hcr : regressionCriterion method ps ys = .ok c) :
    c = Num.nanmean ((targetsInside r.cond xs ys).map fun t =>
      (if method = "mse" then square else Num.abs) (Num.sub (Num.mul x (.fin 1)) t)) := by
  obtain ⟨l, e⟩ := extract_inside hv hc hn
  have hv01 : ∀ a ∈ v, a = 0 ∨ a = 1 := by
    rw [RuleSet.evaluateActivation_ok hv hc]
    intro a ha
    obtain ⟨q, -, rfl⟩ := List.mem_map.1 ha
    unfold flag
    split <;> simp
  simp only [calcPredictionVector, hx, bind, Except.bind, hl, if_false] at hp
  cases hp
  have emap : (v.map fun a : Nat => Label.num (if a = 0 then Num.nan else Num.mul x (.fin a))) =
      (v.map fun a : Nat => if a = 0 then Num.nan else Num.mul x (.fin a)).map Label.num := by
    rw [List.map_map]
    rfl
  rw [Option.getD_some, emap, numbers_nums] at hps
  cases hps
  have herr : errors (v.map fun a : Nat => if a = 0 then Num.nan else Num.mul x (.fin a)) ys =
      .ok (List.zipWith Num.sub (v.map fun a : Nat => if a = 0 then Num.nan else Num.mul x (.fin a)) ys) := by
    unfold errors
    rw [if_neg (by simpa using l)]
  rcases hm with rfl | rfl
  · simp only [regressionCriterion, if_true, mse, herr, bind, Except.bind] at hcr
    cases hcr
    unfold Num.nanmean
    rw [errors_activated hv01 e l square rfl, if_pos rfl]
  · simp only [regressionCriterion, if_true, mae, herr, bind, Except.bind] at hcr
    rw [if_neg (by decide), if_neg (by decide)] at hcr
    cases hcr
    unfold Num.nanmean
    rw [errors_activated hv01 e l Num.abs rfl, if_neg (by decide)]

/-- **C78 (criterion, regression).**  A rule which predicts a number is evaluated, with the mean squared error or the mean absolute error
as measure, on two data sets which have the same targets inside the rule: it gets the same criterion.
Missing: the other measures, among them the default one, divide by an error of all points (`C78_default_false`). -/
theorem C78_criterion_partial {E : Env} {xs xs' : Xs} {y y' : List Label} {rc rc' force : Bool} {kw : Kw} {r r1 r2 : Rule} {x : Num}
    (hE : E.kind = .regression) (hm : kw.criterionMethod = some "mse" ∨ kw.criterionMethod = some "mae")
    (hp : r.getPrediction E = .ok (some (.num x))) (hl : r.length ≠ 0) (h : SameInside r.cond xs y xs' y')
    (h1 : eval E y (some xs) rc force kw r = (.ok (), r1)) (h2 : eval E y' (some xs') rc' force kw r = (.ok (), r2))
    (hg : r1.good = true ∧ r2.good = true ∨ force = true) : r1.criterion = r2.criterion := by
  obtain ⟨hx, hx'⟩ := points h
  obtain ⟨v, p, ps, ys, c, hv, hp1, hps, hys, hc, hd⟩ := eval_regression hE (by rintro _ ⟨⟩; exact hx) h1 (hg.imp_left And.left)
  obtain ⟨v', p', ps', ys', c', hv', hp1', hps', hys', hc', hd'⟩ := eval_regression hE (by rintro _ ⟨⟩; exact hx') h2 (hg.imp_left And.right)
  have q1 := Verif.RFun.numbers_eq hys
  have q2 := Verif.RFun.numbers_eq hys'
  subst q1 q2
  have hm' : kw.criterionMethod.getD "mse_norm" = "mse" ∨ kw.criterionMethod.getD "mse_norm" = "mae" := by
    rcases hm with e | e <;> rw [e] <;> simp
  have e1 := measure_inside hm' hp hl h.talks (by simpa using h.length) hv hp1 hps hc
  have e2 := measure_inside hm' hp hl h.talks' (by simpa using h.length') hv' hp1' hps' hc'
  rw [hd, hd', e1, e2]
  have hin := h.inside
  have key : ∀ {xs : Xs} {ys : List Num}, targetsInside r.cond xs (ys.map Label.num) = (targetsInside r.cond xs ys).map Label.num := by
    intro xs ys
    unfold targetsInside
    rw [List.zip_map_right, List.filter_map, List.map_map, List.map_map]
    rfl
  rw [key, key] at hin
  rw [nanmean_perm ((perm_numbers hin).map _)]

/-- **C78 (criterion, classes).**  The success rate of a classification rule -/
theorem C78_success {E : Env} {xs xs' : Xs} {y y' : List Label} {rc rc' force : Bool} {kw : Kw} {r r1 r2 : Rule} (hE : E.kind = .classification)
    (h : SameInside r.cond xs y xs' y') (h1 : eval E y (some xs) rc force kw r = (.ok (), r1))
    (h2 : eval E y' (some xs') rc' force kw r = (.ok (), r2)) (hg : r1.good = true ∧ r2.good = true ∨ force = true) :
    r1.criterion = r2.criterion := by
  obtain ⟨hx, hx'⟩ := points h
  obtain ⟨v, p, c, hv, hp, hc, hd⟩ := eval_classification hE (by rintro _ ⟨⟩; exact hx) h1 (hg.imp_left And.left)
  obtain ⟨v', p', c', hv', hp', hc', hd'⟩ := eval_classification hE (by rintro _ ⟨⟩; exact hx') h2 (hg.imp_left And.right)
  have e := hp.symm.trans hp'
  injection e with e
  injection e with e
  subst e
  obtain ⟨-, -, e1, e2⟩ := both_extract h hv hv'
  have ec : c = c' := Except.ok.inj (hc.symm.trans ((criterion_of_extract e1 e2 h.inside).trans hc'))
  rw [hd, hd', ec]

/-! ## Examples -/

/-- To find the targets inside in examples -/
theorem inside_eq {E : Env} {r : Rule} {xs : Xs} {v : List Nat} {y l : List β} (h : r.evaluateActivation E xs = .ok v) (hc : TalksAbout r.cond xs)
    (hl : (pointsOf xs).length = y.length) (he : extract v y = .ok l) : targetsInside r.cond xs y = l :=
  Except.ok.inj ((extract_inside h hc hl).2.symm.trans he)

/-- Five points with two columns, as a DataFrame; three of them are in `someCond`, as in `someXs`. -/
def widerXs : Xs := .frame ⟨["b", "a"], [[.fin 9, .fin 7], [.nan, .fin (1 / 3)], [.fin 0, .fin 0], [.fin 1, .nan], [.fin 8, .fin 1]]⟩

/-- Their targets; those inside are 3, 1 and 2. -/
def widerY : List Label := [.num (.fin 100), .num (.fin 3), .num (.fin 1), .num .nan, .num (.fin 2)]

theorem talks_some : TalksAbout RuleFlagProps.newRule.cond RuleProps.someXs :=
  ⟨RulePredictProps.someCond_reach, [⟨"a", 0, .fin 0, .fin 1⟩], ⟨rfl, rfl, rfl, rfl⟩, fun f hf => by
    rw [List.mem_singleton.1 hf]
    exact (⟨by decide, by decide⟩ : (-1 : Int) ≤ 0 ∧ (0 : Int) < 1)⟩

theorem talks_wider : TalksAbout RuleFlagProps.newRule.cond widerXs :=
  ⟨RulePredictProps.someCond_reach, [⟨"a", 0, .fin 0, .fin 1⟩], ⟨rfl, rfl, rfl, rfl⟩, by simp, fun f hf => by
    rw [List.mem_singleton.1 hf]
    decide⟩

theorem same_inside : SameInside RuleFlagProps.newRule.cond RuleProps.someXs RuleFlagProps.fourY widerXs widerY where
  talks := talks_some
  talks' := talks_wider
  length := rfl
  length' := rfl
  some_points := by decide
  some_points' := by decide
  inside := by
    rw [inside_eq (E := RuleProps.someEnv .regression) (r := RuleFlagProps.newRule) (v := [1, 1, 0, 1])
        (l := [Label.num (.fin 1), .num (.fin 2), .num (.fin 3)]) (by decide +kernel) talks_some rfl (by decide +kernel),
      inside_eq (E := RuleProps.someEnv .regression) (r := RuleFlagProps.newRule) (v := [0, 1, 1, 0, 1])
        (l := [Label.num (.fin 3), .num (.fin 1), .num (.fin 2)]) (by decide +kernel) talks_wider rfl (by decide +kernel)]
    decide +kernel

/-- The rule predicts 2 after either fit; its coverage and its z-score differ. -/
example :
    let E := RuleProps.someEnv .regression
    let p := fit E RuleFlagProps.fourY (some RuleProps.someXs) false {} RuleFlagProps.newRule
    let q := fit E widerY (some widerXs) false {} RuleFlagProps.newRule
    SameInside RuleFlagProps.newRule.cond RuleProps.someXs RuleFlagProps.fourY widerXs widerY ∧ p.1 = .ok () ∧ q.1 = .ok () ∧
      p.2.good = true ∧ q.2.good = true ∧ p.2.prediction = .label (.num (.fin 2)) ∧ q.2.prediction = .label (.num (.fin 2)) ∧
      p.2.getCoverage = .ok (.num (.fin (3 / 4))) ∧ q.2.getCoverage = .ok (.num (.fin (3 / 5))) := by
  refine ⟨same_inside, ?_⟩
  decide +kernel

/-- As classes, with other points and without -/
example :
    let E := RuleProps.someEnv .classification
    let p := fit E RuleFlagProps.fourY (some RuleProps.someXs) false {} RuleFlagProps.newRule
    let q := fit E widerY (some widerXs) false {} RuleFlagProps.newRule
    SameInside RuleFlagProps.newRule.cond RuleProps.someXs RuleFlagProps.fourY widerXs widerY ∧ p.1 = .ok () ∧ q.1 = .ok () ∧
      p.2.good = true ∧ q.2.good = true ∧ p.2.prediction = q.2.prediction ∧ p.2.getPrediction E = .ok (some (.num (.fin 1))) := by
  refine ⟨same_inside, ?_⟩
  decide +kernel

/-- The mean squared error of the fitted rule on either data set -/
example :
    let E := RuleProps.someEnv .regression
    let r := RuleFlagProps.fittedRule
    let kw : Kw := { criterionMethod := some "mse" }
    let p := eval E RuleFlagProps.fourY (some RuleProps.someXs) false false kw r
    let q := eval E widerY (some widerXs) false false kw r
    SameInside r.cond RuleProps.someXs RuleFlagProps.fourY widerXs widerY ∧ r.getPrediction E = .ok (some (.num (.fin 2))) ∧ r.length ≠ 0 ∧
      p.1 = .ok () ∧ q.1 = .ok () ∧ p.2.good = true ∧ q.2.good = true ∧ p.2.criterion = .num (.fin (2 / 3)) ∧
      q.2.criterion = .num (.fin (2 / 3)) := by
  refine ⟨(Rule.leaves_fit _ _ _ _ _ _ : _ = RuleFlagProps.newRule.cond) ▸ same_inside, ?_⟩
  decide +kernel

/-- The success rate of a classification rule on either data set -/
example :
    let E := RuleProps.someEnv .classification
    let r := (fit E RuleFlagProps.fourY (some RuleProps.someXs) false {} RuleFlagProps.newRule).2
    let p := eval E RuleFlagProps.fourY (some RuleProps.someXs) false false {} r
    let q := eval E widerY (some widerXs) false false {} r
    SameInside r.cond RuleProps.someXs RuleFlagProps.fourY widerXs widerY ∧ p.1 = .ok () ∧ q.1 = .ok () ∧ p.2.good = true ∧
      q.2.good = true ∧ p.2.criterion = .num (.fin (1 / 3)) ∧ q.2.criterion = .num (.fin (1 / 3)) := by
  refine ⟨(Rule.leaves_fit _ _ _ _ _ _ : _ = RuleFlagProps.newRule.cond) ▸ same_inside, ?_⟩
  decide +kernel

/-- Four points as in `fourY`; the target of the one outside is 5 instead of 3. -/
def elseY : List Label := [.num (.fin 1), .num (.fin 2), .num (.fin 5), .num (.fin 3)]

theorem same_else : SameInside RuleFlagProps.newRule.cond RuleProps.someXs RuleFlagProps.fourY RuleProps.someXs elseY where
  talks := talks_some
  talks' := talks_some
  length := rfl
  length' := rfl
  some_points := by decide
  some_points' := by decide
  inside := by
    rw [inside_eq (E := RuleProps.someEnv .regression) (r := RuleFlagProps.newRule) (v := [1, 1, 0, 1])
        (l := [Label.num (.fin 1), .num (.fin 2), .num (.fin 3)]) (by decide +kernel) talks_some rfl (by decide +kernel),
      inside_eq (E := RuleProps.someEnv .regression) (r := RuleFlagProps.newRule) (v := [1, 1, 0, 1])
        (l := [Label.num (.fin 1), .num (.fin 2), .num (.fin 3)]) (by decide +kernel) talks_some rfl (by decide +kernel)]

/-- **C78 is false of the default criterion of regression rules**: the mean squared error of the points inside is divided by the one
of the mean of all targets, so that a larger target at a point outside, where the rule says nothing, improves the criterion of the
rule. -/
theorem C78_default_false :
    ∃ (E : Env) (r : Rule) (xs : Xs) (y y' : List Label), SameInside r.cond xs y xs y' ∧ r.good = true ∧
      (eval E y (some xs) false false {} r).1 = .ok () ∧ (eval E y' (some xs) false false {} r).1 = .ok () ∧
      (eval E y (some xs) false false {} r).2.good = true ∧ (eval E y' (some xs) false false {} r).2.good = true ∧
      (eval E y (some xs) false false {} r).2.criterion = .num (.fin (32 / 33)) ∧
      (eval E y' (some xs) false false {} r).2.criterion = .num (.fin (32 / 105)) :=
  ⟨RuleProps.someEnv .regression, RuleFlagProps.fittedRule, RuleProps.someXs, RuleFlagProps.fourY, elseY,
    (Rule.leaves_fit _ _ _ _ _ _ : RuleFlagProps.fittedRule.cond = RuleFlagProps.newRule.cond) ▸ same_else, by decide +kernel⟩

/-! ## Rulesets -/

open RuleSet RuleSetProps in
/-- **C78 (rulesets).**  A ruleset whose rules have different conditions is fitted to two data sets which have the same targets inside each of
its rules.  A rule kept by both fits has the same prediction after both; the same standard deviation and sign for regression. -/
theorem C78_set {R : RsEnv} {s s1 s2 : RuleSet} {xs xs' : Xs} {y y' : List Label} {force : Bool} {kw kw' : Kw} {d1 d2 : List Member}
    (hne : s.rules ≠ []) (hd : (s.rules.map fun m => m.rule.cond).Nodup) (hI : ∀ m ∈ s.rules, SameInside m.rule.cond xs y xs' y')
    (h1 : RuleSet.fit R y (some xs) force kw s = (.ok d1, s1)) (h2 : RuleSet.fit R y' (some xs') force kw' s = (.ok d2, s2))
    {m1 m2 : Member} (hm1 : m1 ∈ s1.rules) (hm2 : m2 ∈ s2.rules) (hc : m1.rule.cond = m2.rule.cond) :
    m1.kind = m2.kind ∧ m1.rule.prediction = m2.rule.prediction ∧
      (m1.kind = .regression → m1.rule.std = m2.rule.std ∧ m1.rule.sign = m2.rule.sign) := by
  classical
  obtain ⟨m0, hm0⟩ := List.exists_mem_of_ne_nil _ hne
  obtain ⟨hx, hx'⟩ := points (hI m0 hm0)
  obtain ⟨l1, e1, -, r1, -⟩ := fit_through (⟨by rintro _ ⟨⟩; exact hx, by rintro ⟨⟩⟩) hne h1
  obtain ⟨l2, e2, -, r2, -⟩ := fit_through (⟨by rintro _ ⟨⟩; exact hx', by rintro ⟨⟩⟩) hne h2
  have find : ∀ {y : List Label} {xs : Xs} {kw : Kw} {l : List Member} {t : RuleSet} {m : Member},
      EachDone R (fun E => Rule.fit E y (some xs) force kw) s.rules l → t.rules = (l.filter fun m => Stays R.hasher l m) → m ∈ t.rules →
      m.rule.good = true ∧ ∃ m' ∈ s.rules, m.kind = m'.kind ∧ Rule.fit (R.ofKind m'.kind) y (some xs) force kw m'.rule = (.ok (), m.rule) ∧
        m.rule.cond = m'.rule.cond := by
    intro y xs kw l t m he ht hm
    rw [ht, List.mem_filter] at hm
    refine ⟨(of_decide_eq_true hm.2).1, ?_⟩
    clear ht
    obtain ⟨hm, -⟩ := hm
    generalize s.rules = q at he
    induction he with
    | nil => cases hm
    | @cons a b q l hab _ ih =>
      rcases List.mem_cons.1 hm with rfl | hm
      · refine ⟨a, by simp, hab.1, hab.2, ?_⟩
        have := Rule.leaves_fit (R.ofKind a.kind) y (some xs) force kw a.rule
        rwa [show Rule.fit (R.ofKind a.kind) y (some xs) force kw a.rule = _ from hab.2] at this
      · obtain ⟨m', hm', h⟩ := ih hm
        exact ⟨m', List.mem_cons_of_mem _ hm', h⟩
  obtain ⟨g1, a, ha, k1, f1, c1⟩ := find e1 r1 hm1
  obtain ⟨g2, b, hb, k2, f2, c2⟩ := find e2 r2 hm2
  have hab : a = b := List.inj_on_of_nodup_map hd ha hb (c1.symm.trans (hc.trans c2))
  subst hab
  refine ⟨k1.trans k2.symm, ?_⟩
  rw [k1]
  cases hk : a.kind with
  | regression =>
    obtain ⟨p, q, r⟩ := C78_regression (E := R.ofKind a.kind) hk (hI a ha) f1 f2 (.inl ⟨g1, g2⟩)
    exact ⟨p, fun _ => ⟨r, q⟩⟩
  | classification =>
    obtain ⟨p, -⟩ := C78_classes (E := R.ofKind a.kind) hk (hI a ha) f1 f2 (.inl ⟨g1, g2⟩)
    exact ⟨p, by rintro ⟨⟩⟩

/-- The points of `someXs` and one outside all rules -/
def oneMore : Xs := .arr ⟨1, [[.fin 0], [.fin 1], [.fin 2], [.fin (1 / 2)], [.fin 20]]⟩

/-- `unfitted`, and the targets of `someY` with one more: both fits keep the first rule, which predicts 3 after both; the first one keeps the
second rule too. -/
example :
    let p := RuleSet.fit RuleSetProps.someRs RuleSetProps.someY (some RuleProps.someXs) false {} RuleSetProps.unfitted
    let q := RuleSet.fit RuleSetProps.someRs (RuleSetProps.someY ++ [.num (.fin 50)]) (some oneMore) false {} RuleSetProps.unfitted
    RuleSetProps.unfitted.rules ≠ [] ∧ (RuleSetProps.unfitted.rules.map fun m => m.rule.cond).Nodup ∧
      (∀ m ∈ RuleSetProps.unfitted.rules,
        SameInside m.rule.cond RuleProps.someXs RuleSetProps.someY oneMore (RuleSetProps.someY ++ [.num (.fin 50)])) ∧
      p.1.isOk = true ∧ q.1.isOk = true ∧ p.2.rules.map (fun m => m.rule.prediction) = [.label (.num (.fin 3)), .label (.num (.fin (5 / 2)))] ∧
      q.2.rules.map (fun m => m.rule.prediction) = [.label (.num (.fin 3))] := by
  refine ⟨by decide +kernel, by decide +kernel, ?_, by decide +kernel⟩
  have hr : RuleSetProps.unfitted.rules = [RuleSetProps.member 0 [1, 1, 1], RuleSetProps.member 1 [0, 0, 1], RuleSetProps.member 2 [1, 1, 0]] := by
    decide +kernel
  rw [hr]
  have talks : ∀ lo ∈ [(0 : Rat), 1, 2], ∀ v : List Nat, ∀ rows,
      TalksAbout (RuleSetProps.member lo v).rule.cond (.arr ⟨1, rows⟩) := by
    intro lo hlo v rows
    refine ⟨RuleSetProps.member_reach lo hlo v _, [⟨"a", 0, .fin lo, .fin 9⟩], ⟨rfl, rfl, rfl, rfl⟩, ?_⟩
    intro f hf
    rw [List.mem_singleton.1 hf]
    exact (⟨by decide, by decide⟩ : (-1 : Int) ≤ 0 ∧ (0 : Int) < 1)
  have make : ∀ lo ∈ [(0 : Rat), 1, 2], ∀ (v a b : List Nat) (l : List Label),
      (RuleSetProps.member lo v).rule.evaluateActivation (RuleProps.someEnv .regression) RuleProps.someXs = .ok a →
      (RuleSetProps.member lo v).rule.evaluateActivation (RuleProps.someEnv .regression) oneMore = .ok b → extract a RuleSetProps.someY = .ok l →
      extract b (RuleSetProps.someY ++ [.num (.fin 50)]) = .ok l →
      SameInside (RuleSetProps.member lo v).rule.cond RuleProps.someXs RuleSetProps.someY oneMore (RuleSetProps.someY ++ [.num (.fin 50)]) := by
    intro lo hlo v a b l ha hb hl hl'
    refine ⟨talks lo hlo v _, talks lo hlo v _, rfl, rfl, by decide, by decide, ?_⟩
    rw [inside_eq (y := RuleSetProps.someY) ha (talks lo hlo v _) rfl hl, inside_eq (y := RuleSetProps.someY ++ [Label.num (.fin 50)]) hb (talks lo hlo v _) rfl hl']
  intro m hm
  simp only [List.mem_cons, List.not_mem_nil, or_false] at hm
  rcases hm with rfl | rfl | rfl
  · exact make 0 (by decide) _ [1, 1, 1, 1] [1, 1, 1, 1, 0] _ (by decide +kernel) (by decide +kernel) rfl rfl
  · exact make 1 (by decide) _ [0, 1, 1, 0] [0, 1, 1, 0, 0] _ (by decide +kernel) (by decide +kernel) rfl rfl
  · exact make 2 (by decide) _ [0, 0, 1, 0] [0, 0, 1, 0, 0] _ (by decide +kernel) (by decide +kernel) rfl rfl

end Verif.InsideProps
