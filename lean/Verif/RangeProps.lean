import Verif.RangeSetLemmas
import Verif.RowOrderSetLemmas
import Verif.UnitProps

/-!
# Predictions stay among the training targets

A mean of targets, and a mean of such means, is a number between the least and the greatest target; a vote elects a class which was
among the targets.
-/

namespace Verif.RuleSetProps

open Verif Spec Vote RuleSet Range RuleStatProps

variable {lo hi : Rat}

/-! ## Rules -/

/-- **C72 (rule).** If all training targets are between `lo` and `hi`, or missing, the prediction of a fitted regression rule is
between `lo` and `hi`, or missing. -/
theorem C72_rule {E : Env} {y : List (Option Rat)} {xs : Option Xs} {force : Bool} {kw : Rule.Kw} {r r' : Rule}
    (hk : E.kind = .regression) (hx : Rule.Runs r xs) (h : Rule.fit E (targets y) xs force kw r = (.ok (), r'))
    (hg : r'.good = true ∨ force = true) (hy : ∀ q, some q ∈ y → lo ≤ q ∧ q ≤ hi) :
    ∃ x, r'.prediction = .label (.num x) ∧ MissingOrBetween lo hi x := by
  obtain ⟨v, ys, m, var, -, hys, hm, -, hd⟩ := Rule.fit_regression hk hx h hg
  rw [targets, RFun.numbers_ofOption] at hys
  cases hys
  exact ⟨m, (congrArg Rule.prediction hd :), conditionalMean_range hy hm⟩

/-- **C72 (class of a rule).** The class which a fitted classification rule predicts is one of the training targets. -/
theorem C72_rule_class {E : Env} {y : List Label} {xs : Option Xs} {force : Bool} {kw : Rule.Kw} {r r' : Rule}
    (hk : E.kind = .classification) (hx : Rule.Runs r xs) (h : Rule.fit E y xs force kw r = (.ok (), r'))
    (hg : r'.good = true ∨ force = true) {c : Label} {E' : Env} (hc : r'.getPrediction E' = .ok (some c)) : c ∈ y := by
  obtain ⟨v, p, -, hp, hd⟩ := Rule.fit_classification hk hx h hg
  have e : r'.prediction = .probs p := (congrArg Rule.prediction hd :)
  simp only [Rule.getPrediction, e] at hc
  cases hb : RFun.bestClass E'.floatStr p with
  | error e => rw [hb] at hc; cases hc
  | ok c' =>
    rw [hb] at hc
    cases hc
    obtain ⟨q, hq, rfl⟩ := bestClass_mem hb
    exact classProbabilities_mem hp q hq

/-! ## Rulesets -/

/-- **C72 (predict).** If every rule of a regression ruleset predicts a number between `lo` and `hi`, whatever `predict` returns is
between `lo` and `hi` at each point, or missing: for given or remembered activations, with or without stacked activations, with or
without weights which are not negative.
Missing: a rule which predicts NaN breaks the claim (`C72_nan_false`), and so do 256 rules active at a point (`C22_count_false`), so
that fewer rules are assumed when there are no weights and no stacked activations. -/
theorem C72_predict_partial {R : RsEnv} {s s' : RuleSet} {xs : Option Xs} {w : Option WeightsArg} {l : List Cell}
    (hk : s.ruleType = some .regression)
    (hr : ∀ r ∈ rulesOf s, ∃ q : Rat, r.prediction = .label (.num (.fin q)) ∧ lo ≤ q ∧ q ≤ hi)
    (hm : xs = none → Remembers R s) (hw : NotNegative (voteEnv R .regression) (rulesOf s) w)
    (hn : w ≠ none ∨ s.rules.length < 256) (h : predict R xs w s = (.ok l, s')) :
    ∀ c ∈ l, ∃ x, c = .label (.num x) ∧ MissingOrBetween lo hi x := by
  have hr' : ∀ r ∈ rulesOf s, Says (voteEnv R .regression).env lo hi r := fun r hrr => by
    obtain ⟨q, h1, h2⟩ := hr r hrr
    exact ⟨q, by simp [Rule.getPrediction, h1], h2⟩
  rcases predict_ways hk h with rfl | ⟨c, c', w', -, hc, hc', hw', hp⟩ | ⟨w', l', hw', hp, rfl⟩
  · simp
  · have hcols := stackFor_range hc hm hc'
    refine predictStacked_range (by rfl) hr' (fun p hp => (hcols p hp).1) ?_ hp
    rintro w1 rfl p hpc x hx
    rcases notNegative_weights hw hw' with h1 | ⟨w2, wt, e, h1, h2⟩
    · cases h1
    · cases e
      obtain ⟨r, hrr, e⟩ := (hcols p hpc).2
      rw [e] at hx
      rcases h1 r hrr with h3 | ⟨-, h3 | h3⟩
      · right
        exact ⟨wt r, Option.some.inj (hx.symm.trans h3), h2 r hrr⟩
      · exact absurd (hx.symm.trans h3) (by simp)
      · left; exact Option.some.inj (hx.symm.trans h3)
  · have hx' : xs = none → ∀ r ∈ rulesOf s, ∀ v, r.act = some v → ZeroOne v := fun e => (hm e).1
    have hkind : (voteEnv R .regression).env.kind = .regression := rfl
    suffices ∃ l1 : List Num, l' = l1.map .num ∧ ∀ x ∈ l1, MissingOrBetween lo hi x by
      obtain ⟨l1, rfl, h1⟩ := this
      intro c hc
      obtain ⟨a, ha, rfl⟩ := List.mem_map.1 hc
      obtain ⟨x, hx, rfl⟩ := List.mem_map.1 ha
      exact ⟨x, rfl, h1 x hx⟩
    cases w' with
    | some w1 =>
      rcases notNegative_weights hw hw' with h1 | ⟨w2, wt, e, h1, h2⟩
      · cases h1
      · cases e
        have hp' : Vote.predictUnstacked (voteEnv R .regression) (some w1) xs (rulesOf s) =
            (.ok l', (Vote.predictUnstacked (voteEnv R .regression) (some w1) xs (rulesOf s)).2) := Prod.ext hp rfl
        simp only [Vote.predictUnstacked, hkind] at hp'
        obtain ⟨_, s1, h3, hp'⟩ := Py.bind_eq_ok hp'
        simp only [Py.get_run, Prod.mk.injEq, Except.ok.injEq] at h3
        obtain ⟨rfl, rfl⟩ := h3
        obtain ⟨l1, s1, h3, hp'⟩ := Py.bind_eq_ok hp'
        simp only [Py.ofExcept_run, Prod.mk.injEq] at h3
        simp only [Py.pure_run, Prod.mk.injEq, Except.ok.injEq] at hp'
        exact ⟨l1, hp'.1.symm, weightedRegressor_range h1 h2 hr' hx' h3.1⟩
    | none =>
      have hn' : (rulesOf s).length < 256 := by
        rcases hn with h1 | h1
        · exfalso
          cases w with
          | none => exact h1 rfl
          | some a =>
            simp only [weightsOf] at hw'
            cases ha : weightsFrom (voteEnv R .regression) (s.rules.map (·.rule)) a with
            | error e => rw [ha] at hw'; cases hw'
            | ok z => rw [ha] at hw'; cases hw'
        · simpa [rulesOf] using h1
      have hp' : Vote.predictUnstacked (voteEnv R .regression) none xs (rulesOf s) =
          (.ok l', (Vote.predictUnstacked (voteEnv R .regression) none xs (rulesOf s)).2) := Prod.ext hp rfl
      simp only [Vote.predictUnstacked, hkind] at hp'
      obtain ⟨_, s1, h3, hp'⟩ := Py.bind_eq_ok hp'
      simp only [Py.get_run, Prod.mk.injEq, Except.ok.injEq] at h3
      obtain ⟨rfl, rfl⟩ := h3
      obtain ⟨l1, s1, h3, hp'⟩ := Py.bind_eq_ok hp'
      simp only [Py.pure_run, Prod.mk.injEq, Except.ok.injEq] at hp'
      exact ⟨l1, hp'.1.symm, equalRegressor_range hn' hr' hx' h3⟩

/-- **C72 (classes).** Each point is predicted to be of a class which one of the rules predicts, or missing; for given or remembered
activations, with or without stacked activations, with any weights.  With stacked activations there can also be an empty DataFrame
(`C24_stacked_none_false`). -/
theorem C72_predict_class {R : RsEnv} {s s' : RuleSet} {xs : Option Xs} {w : Option WeightsArg} {l : List Cell}
    (hk : s.ruleType = some .classification) (hm : xs = none → Remembers R s) (h : predict R xs w s = (.ok l, s')) :
    ∀ c ∈ l, c = .label (.num .nan) ∨ (∃ k, c = .label k ∧ ∃ r ∈ rulesOf s, r.getPrediction (R.ofKind .classification) = .ok (some k)) ∨
      c = .frame ∧ R.stackedFit = true ∧ s.stacked ≠ none := by
  rcases predict_ways hk h with rfl | ⟨c, c', w', hs, hc, hc', hw', hp⟩ | ⟨w', l', hw', hp, rfl⟩
  · simp
  · have hcols := stackFor_range hc hm hc'
    intro c hcl
    rcases predictStacked_mem (by rfl) (fun p hp => (hcols p hp).1) hp c hcl with h1 | h1 | ⟨k, ⟨r, h1, h2⟩, rfl⟩
    · exact .inr (.inr ⟨h1, hs, by rw [hc]; simp⟩)
    · exact .inl h1
    · exact .inr (.inl ⟨k, rfl, r, h1, h2⟩)
  · intro c hcl
    obtain ⟨k, hkl, rfl⟩ := List.mem_map.1 hcl
    rcases classUnstacked (by rfl) hp k hkl with rfl | ⟨r, h1, h2⟩
    · exact .inl rfl
    · exact .inr (.inl ⟨k, rfl, r, h1, h2⟩)

/-- **C72 (fit and predict).** After `fit(y, xs)` of a regression ruleset on targets between `lo` and `hi` (or missing), whatever
`predict` returns for any features is between `lo` and `hi` at each point, or missing.
Missing: as for `C72_predict_partial`; in particular it is assumed that every rule kept by `fit` predicts a number. -/
theorem C72_fit_predict_partial {R : RsEnv} {y : List (Option Rat)} {x x' : Xs} {force : Bool} {kw : Rule.Kw} {s s' s'' : RuleSet}
    {dropped : List Member} {w : Option WeightsArg} {l : List Cell} (hx : x.length ≠ 0) (hne : s.rules ≠ [])
    (hr : ∀ m ∈ s.rules, m.kind = .regression) (hy : ∀ q, some q ∈ y → lo ≤ q ∧ q ≤ hi)
    (hf : fit R (targets y) (some x) force kw s = (.ok dropped, s')) (hk : s'.ruleType = some .regression)
    (hp : ∀ r ∈ rulesOf s', r.prediction ≠ .label (.num .nan)) (hw : NotNegative (voteEnv R .regression) (rulesOf s') w)
    (hn : w ≠ none ∨ s'.rules.length < 256) (h : predict R (some x') w s' = (.ok l, s'')) :
    ∀ c ∈ l, ∃ z, c = .label (.num z) ∧ MissingOrBetween lo hi z := by
  obtain ⟨ms, h1, -, h2, -⟩ := fit_through ⟨fun _ e => (by cases e; exact hx), fun e => by cases e⟩ hne hf
  refine C72_predict_partial hk ?_ (fun e => by cases e) hw hn h
  intro r hrr
  obtain ⟨m, hm, rfl⟩ := List.mem_map.1 hrr
  have hp := hp _ hrr
  rw [h2] at hm
  obtain ⟨hm, hg⟩ := List.mem_filter.1 hm
  simp only [decide_eq_true_eq] at hg
  have hg := hg.1
  obtain ⟨m0, hm0, hk0, hfit⟩ := RowOrder.forall₂_mem_right h1 hm
  obtain ⟨z, h3, h4⟩ := C72_rule (xs := some x) (by rw [hr m0 hm0]; rfl) hx hfit (.inl hg) hy
  rw [h3] at hp
  rcases h4 with rfl | ⟨q, rfl, h4⟩
  · exact absurd rfl hp
  · exact ⟨q, h3, h4⟩

/-- **C72 (fit and predict, classes).** After `fit(y, xs)` of a classification ruleset, whatever `predict` returns for any features is
at each point one of the training classes, or missing (or, with stacked activations, an empty DataFrame). -/
theorem C72_fit_predict_class {R : RsEnv} {y : List Label} {x x' : Xs} {force : Bool} {kw : Rule.Kw} {s s' s'' : RuleSet}
    {dropped : List Member} {w : Option WeightsArg} {l : List Cell} (hx : x.length ≠ 0) (hne : s.rules ≠ [])
    (hr : ∀ m ∈ s.rules, m.kind = .classification)
    (hf : fit R y (some x) force kw s = (.ok dropped, s')) (hk : s'.ruleType = some .classification)
    (h : predict R (some x') w s' = (.ok l, s'')) :
    ∀ c ∈ l, c = .label (.num .nan) ∨ (∃ k ∈ y, c = .label k) ∨ c = .frame ∧ R.stackedFit = true ∧ s'.stacked ≠ none := by
  obtain ⟨ms, h1, -, h2, -⟩ := fit_through ⟨fun _ e => (by cases e; exact hx), fun e => by cases e⟩ hne hf
  intro c hc
  rcases C72_predict_class hk (fun e => by cases e) h c hc with h3 | ⟨k, rfl, r, hrr, h3⟩ | h3
  · exact .inl h3
  · refine .inr (.inl ⟨k, ?_, rfl⟩)
    obtain ⟨m, hm, rfl⟩ := List.mem_map.1 hrr
    rw [h2] at hm
    obtain ⟨hm, hg⟩ := List.mem_filter.1 hm
    simp only [decide_eq_true_eq] at hg
    have hg := hg.1
    obtain ⟨m0, hm0, hk0, hfit⟩ := RowOrder.forall₂_mem_right h1 hm
    exact C72_rule_class (xs := some x) (by rw [hr m0 hm0]; rfl) hx hfit (.inl hg) h3
  · exact .inr (.inr h3)

/-! ## Cases -/

/-- Nothing is too rare here. -/
def openRs : RsEnv :=
  { someRs with toSetEnv := { VoteProps.someSet .regression with env := { Units.exactEnv with thresholds := none } } }

/-- Regression rules with these lower bounds, not fitted -/
def bounded (los : List Rat) : RuleSet :=
  (RuleSet.init openRs (los.map fun lo => member lo [1, 1, 1, 1]) true (RuleSet.blank true)).2

/-- A ruleset fitted on targets between 1 and 6, and its predictions for other features, with weights and without -/
example :
    let xs := RuleProps.someXs
    let p := fit openRs (targets [some 1, some 2, none, some 6]) (some xs) false {} (bounded [0, 1])
    let w := WeightsArg.series (VoteProps.someWeights 1 3 0)
    p.1 = .ok [] ∧ xs.length ≠ 0 ∧ p.2.ruleType = some .regression ∧
      (rulesOf p.2).map (·.prediction) = [.label (.num (.fin 3)), .label (.num (.fin 2))] ∧
      (predict openRs (some RuleProps.farXs) none p.2).1 =
        .ok [.label (.num (.fin 3)), .label (.num (.fin (5 / 2))), .label (.num (.fin (5 / 2))), .label (.num (.fin (5 / 2)))] ∧
      (predict openRs (some RuleProps.farXs) (some w) p.2).1 =
        .ok [.label (.num (.fin 3)), .label (.num (.fin (9 / 4))), .label (.num (.fin (9 / 4))), .label (.num (.fin (9 / 4)))] := by
  decide +kernel

/-- Remembered activations with cancelling predictions: at the last point the sum is 0 and the mean is missing. -/
example :
    let s := setWith .regression [VoteProps.voter 0 [1, 0, 1] (.num (.fin 2)), VoteProps.voter 1 [0, 1, 1] (.num (.fin (-2)))]
    let w := WeightsArg.series (VoteProps.someWeights 1 1 0)
    Remembers someRs s ∧ NotNegative (voteEnv someRs .regression) (rulesOf s) (some w) ∧ s.ruleType = some .regression ∧
      (∀ r ∈ rulesOf s, ∃ q : Rat, r.prediction = .label (.num (.fin q)) ∧ -2 ≤ q ∧ q ≤ 2) ∧
      (predict someRs none (some w) s).1 = .ok [.label (.num (.fin 2)), .label (.num (.fin (-2))), .label (.num .nan)] := by
  refine ⟨⟨?_, fun c hc => by cases hc⟩, ?_, rfl, ?_, by decide +kernel⟩
  · intro r hr v hv
    simp only [setWith, rulesOf, List.map_cons, List.map_nil, List.mem_cons, List.not_mem_nil, or_false] at hr
    rcases hr with rfl | rfl <;> cases hv <;> intro a ha <;> simp at ha <;> omega
  · intro w' hw'
    cases hw'
    refine ⟨VoteProps.weightIn (voteEnv someRs .regression) (VoteProps.someWeights 1 1 0), ?_, ?_⟩
    · intro r hr
      simp only [setWith, rulesOf, List.map_cons, List.map_nil, List.mem_cons, List.not_mem_nil, or_false] at hr
      rcases hr with rfl | rfl <;> left <;> decide +kernel
    · intro r hr
      simp only [setWith, rulesOf, List.map_cons, List.map_nil, List.mem_cons, List.not_mem_nil, or_false] at hr
      rcases hr with rfl | rfl <;> decide +kernel
  · intro r hr
    simp only [setWith, rulesOf, List.map_cons, List.map_nil, List.mem_cons, List.not_mem_nil, or_false] at hr
    rcases hr with rfl | rfl
    · exact ⟨2, rfl, by norm_num, by norm_num⟩
    · exact ⟨-2, rfl, by norm_num, by norm_num⟩

/-- Classification rules with these lower bounds, not fitted -/
def boundedClasses (los : List Rat) : RuleSet :=
  (RuleSet.init openRs (los.map fun lo => ⟨.classification, VoteProps.voter lo [1, 1, 1, 1] (.text "?")⟩) true (RuleSet.blank true)).2

/-- A ruleset fitted on two classes, and its predictions for other features -/
example :
    let xs := RuleProps.someXs
    let p := fit openRs [.text "red", .text "blue", .text "blue", .text "red"] (some xs) false {} (boundedClasses [1 / 2, 1])
    p.1 = .ok [] ∧ xs.length ≠ 0 ∧ p.2.ruleType = some .classification ∧
      (rulesOf p.2).map (·.getPrediction (openRs.ofKind .classification)) = [.ok (some (.text "blue")), .ok (some (.text "blue"))] ∧
      (predict openRs (some RuleProps.farXs) none p.2).1 =
        .ok [.label (.num .nan), .label (.text "blue"), .label (.text "blue"), .label (.text "blue")] := by
  decide +kernel

/-- **C72: a rule which covers no training point.** All targets are 10, and the second of three rules is active nowhere in the training
data: its prediction is NaN, and `fit` keeps it.  For the very features of the training data, the ruleset then predicts 5 where the
other rules, which predict 10, are both active; and nothing where only the first is. -/
theorem C72_nan_false :
    let xs := RuleProps.someXs
    let p := fit openRs (targets [some 10, some 10, some 10, some 10]) (some xs) false {} (bounded [0, 5, 1])
    p.1 = .ok [] ∧
      (rulesOf p.2).map (·.prediction) = [.label (.num (.fin 10)), .label (.num .nan), .label (.num (.fin 10))] ∧
      (rulesOf p.2).map (·.act) = [some [1, 1, 1, 1], some [0, 0, 0, 0], some [0, 1, 1, 0]] ∧
      (predict openRs (some xs) none p.2).1 =
        .ok [.label (.num .nan), .label (.num (.fin 5)), .label (.num (.fin 5)), .label (.num .nan)] := by
  decide +kernel

end Verif.RuleSetProps
