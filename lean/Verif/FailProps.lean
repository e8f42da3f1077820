import Verif.FailLemmas
import Verif.AgainEvalProps
import Verif.ActiveProps

/-!
# C90: rulesets after an operation which raised
-/

namespace Verif.FailProps

open Verif Vote Spec RuleSet RuleSetProps FailLemmas

variable {R : RsEnv}

/-! ## predict -/

/-- **C90 (predictions), partial.** `predict` leaves the ruleset as it was, whether it gives predictions or raises, when it does not write into the stored
activation of the first rule.
Missing: plain means of regression rules without features, whose activations are stored as arrays (`C90_predict_false`). -/
theorem C90_predict_partial {xs : Option Xs} {w : Option WeightsArg} {s : RuleSet} (h : NoWriting R xs w s) :
    (RuleSet.predict R xs w s).2 = s := predict_state h

/-- The third activation has another length: a `ValueError`; weights for no rule. -/
def uneven : RuleSet := setWith .regression [VoteProps.voter 0 [1, 1, 0] (.num (.fin 2)), VoteProps.voter 1 [0, 1, 0] (.num (.fin 5)),
  VoteProps.voter 2 [1, 1] (.num (.fin 7))]

example : NoWriting ActiveProps.cleanRs none none uneven ∧ (RuleSet.predict ActiveProps.cleanRs none none uneven).1 = .error .valueError ∧
    NoWriting someRs (some (.arr ⟨0, [[], []]⟩)) none uneven ∧
    (RuleSet.predict someRs (some (.arr ⟨0, [[], []]⟩)) none uneven).1 = .error .indexError :=
  ⟨.inr (.inr (.inr fun _ _ => rfl)), by decide +kernel, .inl (by simp), by decide +kernel⟩

/-- **C90 is false of plain means without features:** the third activation has another length, `predict` raises `ValueError` and has changed the activation
of the first rule. -/
theorem C90_predict_false :
    (RuleSet.predict someRs none none uneven).1 = .error .valueError ∧
      uneven.rules.map (fun m => m.rule.act) = [some [1, 1, 0], some [0, 1, 0], some [1, 1]] ∧
      (RuleSet.predict someRs none none uneven).2.rules.map (fun m => m.rule.act) = [some [1, 2, 0], some [0, 1, 0], some [1, 1]] :=
  ⟨by decide +kernel, by decide +kernel, by decide +kernel⟩

/-! ## fit and eval -/

/-- **C90 (refused calls).** A call of `fit` or `eval` which is refused at once leaves the ruleset as it was: without type of the rules, with `method`
among the keywords, or, for `eval`, without features when some rule is not fitted. -/
theorem C90_refused (y : List Label) (xs : Option Xs) (keep : Bool) (w : Option WeightsArg) (force : Bool) (kw : Rule.Kw) (s : RuleSet) :
    (s.ruleType = none → fit R y xs force kw s = (.error .valueError, s) ∧ eval R y xs keep w force kw s = (.error .valueError, s)) ∧
    (∀ k, s.ruleType = some k → kw.hasMethod = true →
      fit R y xs force kw s = (.error .indexError, s) ∧ eval R y xs keep w force kw s = (.error .indexError, s)) ∧
    (∀ k, s.ruleType = some k → kw.hasMethod = false → (∃ m ∈ s.rules, m.rule.fitted = false) →
      eval R y none keep w force kw s = (.error .valueError, s)) := by
  refine ⟨fun h => ?_, fun k h hm => ?_, fun k h hm hf => ?_⟩
  · have : needType s = (.error .valueError, s) := by
      unfold needType
      rw [Py.bind_ok (Py.get_run s)]
      simp [h]
    exact ⟨Py.bind_err this, Py.bind_err this⟩
  · have : needType s = (.ok k, s) := by
      unfold needType
      rw [Py.bind_ok (Py.get_run s)]
      simp [h]
    unfold fit eval
    rw [Py.bind_ok this, Py.bind_ok this, if_pos hm, if_pos hm]
    exact ⟨rfl, rfl⟩
  · have : needType s = (.ok k, s) := by
      unfold needType
      rw [Py.bind_ok (Py.get_run s)]
      simp [h]
    unfold eval
    obtain ⟨m, hm1, hm2⟩ := hf
    have hne : ¬ s.rules.length = 0 := by
      intro h0
      rw [List.length_eq_zero_iff.1 h0] at hm1
      cases hm1
    have hall : (s.rules.all fun m => m.rule.fitted) = false := by
      rw [List.all_eq_false]
      exact ⟨m, hm1, by simp [hm2]⟩
    rw [Py.bind_ok this, if_neg (by simp [hm]), Py.bind_ok (Py.get_run s), if_neg (by simp), if_neg hne, if_pos (by simp [hall])]
    rfl

example : (blank true).ruleType = none ∧ unfitted.ruleType = some .regression ∧ (∃ m ∈ unfitted.rules, m.rule.fitted = false) := by
  refine ⟨rfl, rfl, ?_⟩
  decide +kernel

/-- **C90 (a rule which cannot be fitted), partial.** When fitting one of the rules raises, `fit` of the ruleset raises the same; the rules before it are
fitted, those after it and everything else of the ruleset are as they were, and no rule is dropped.
Missing: the rules before it stay fitted (`C90_fit_false`). -/
theorem C90_fit_partial {y : List Label} {xs : Option Xs} {force : Bool} {kw : Rule.Kw} {s : RuleSet} {k : Kind} {e : Err} {l' : List Member}
    (hk : s.ruleType = some k) (hm : kw.hasMethod = false) (hx : Fits s xs)
    (h : StoppedAt R (fun E => Rule.fit E y xs force kw) e s.rules l') :
    fit R y xs force kw s = (.error e, { s with rules := l' }) := by
  have hn : needType s = (.ok k, s) := by
    unfold needType
    rw [Py.bind_ok (Py.get_run s)]
    simp [hk]
  have hne : ¬ s.rules.length = 0 := by
    obtain ⟨d, _, m, _, r, hs, _⟩ := h
    rw [hs]
    simp
  unfold fit
  rw [Py.bind_ok hn, if_neg (by simp [hm]), Py.bind_ok (Py.get_run s), if_neg, if_neg hne, if_neg]
  · exact Py.bind_err (forRules_stopped h)
  · intro hc
    rw [Bool.and_eq_true, List.all_eq_true, Option.isNone_iff_eq_none] at hc
    obtain ⟨m, hm1, hm2⟩ := hx.2 hc.2
    rw [hc.1 m hm1] at hm2
    cases hm2
  · intro hc
    rw [Option.any_eq_true] at hc
    obtain ⟨x, h1, h2⟩ := hc
    exact hx.1 x h1 (by simpa using h2)

/-- **C90 (a rule which cannot be evaluated), partial.** The same of `eval`; also the criterion and the size of the test set are as they were.
Missing: the rules before it stay evaluated; errors of the criterion are found after rules have been dropped (`C90_eval_false`). -/
theorem C90_eval_partial {y : List Label} {xs : Option Xs} {keep : Bool} {w : Option WeightsArg} {force : Bool} {kw : Rule.Kw} {s : RuleSet} {k : Kind}
    {e : Err} {l' : List Member} (hk : s.ruleType = some k) (hm : kw.hasMethod = false) (hx : ∀ x, xs = some x → x.length ≠ 0)
    (hf : xs = none → ∀ m ∈ s.rules, m.rule.fitted = true)
    (h : StoppedAt R (fun E => Rule.eval E y xs (keep || s.rules.any fun m => !m.rule.fitted) force kw) e s.rules l') :
    eval R y xs keep w force kw s = (.error e, { s with rules := l' }) := by
  have hn : needType s = (.ok k, s) := by
    unfold needType
    rw [Py.bind_ok (Py.get_run s)]
    simp [hk]
  have hne : ¬ s.rules.length = 0 := by
    obtain ⟨d, _, m, _, r, hs, _⟩ := h
    rw [hs]
    simp
  unfold eval
  rw [Py.bind_ok hn, if_neg (by simp [hm]), Py.bind_ok (Py.get_run s), if_neg, if_neg hne, if_neg]
  · rw [← List.not_all_eq_any_not] at h
    exact Py.bind_err (forRules_stopped h)
  · intro hc
    rw [Bool.and_eq_true, Option.isNone_iff_eq_none, Bool.not_eq_true', List.all_eq_false] at hc
    obtain ⟨⟨m, hm1, hm2⟩, hc2⟩ := hc
    exact hm2 (hf hc2 m hm1)
  · intro hc
    rw [Option.any_eq_true] at hc
    obtain ⟨x, h1, h2⟩ := hc
    exact hx x h1 (by simpa using h2)

/-- A rule on a column which `someXs` does not have -/
def farMember : Member := ⟨.regression, { (member 2 [1, 1, 0, 0]).rule with cond := { (member 2 [1, 1, 0, 0]).rule.cond with indexes := some [7] } }⟩

/-- The first rule can be fitted, the second one cannot. -/
def farSet : RuleSet := started [member 0 [1, 1, 1, 1], farMember, member 1 [0, 0, 1, 1]] false

example : farSet.ruleType = some .regression ∧ Fits farSet (some RuleProps.someXs) ∧
    ∃ l', StoppedAt someRs (fun E => Rule.fit E someY (some RuleProps.someXs) false {}) .indexError farSet.rules l' := by
  refine ⟨rfl, ⟨fun x hx => ?_, fun h => by cases h⟩, _, [member 0 [1, 1, 1, 1]],
    [⟨.regression, (Rule.fit (someRs.ofKind .regression) someY (some RuleProps.someXs) false {} (member 0 [1, 1, 1, 1]).rule).2⟩], farMember, _, [member 1 [0, 0, 1, 1]], rfl, rfl,
    .cons ⟨rfl, Prod.ext ?_ rfl⟩ .nil, Prod.ext ?_ rfl⟩
  · cases hx
    decide +kernel
  · decide +kernel
  · decide +kernel

/-- `eval` of the same rules, which are not fitted yet -/
example : (∀ x, some RuleProps.someXs = some x → x.length ≠ 0) ∧ ∃ l', StoppedAt someRs (fun E => Rule.eval E someY (some RuleProps.someXs)
    (false || farSet.rules.any fun m => !m.rule.fitted) false {}) .indexError farSet.rules l' := by
  refine ⟨fun x hx => ?_, _, [member 0 [1, 1, 1, 1]],
    [⟨.regression, (Rule.eval (someRs.ofKind .regression) someY (some RuleProps.someXs) true false {} (member 0 [1, 1, 1, 1]).rule).2⟩], farMember, _, [member 1 [0, 0, 1, 1]], rfl, rfl,
    .cons ⟨rfl, Prod.ext ?_ rfl⟩ .nil, Prod.ext ?_ rfl⟩
  · cases hx
    decide +kernel
  · decide +kernel
  · decide +kernel

/-- **C90 is false of `fit`:** the second rule asks for a column which the features do not have, `fit` raises `IndexError`, the first rule is fitted and the
others are not. -/
theorem C90_fit_false :
    (fit someRs someY (some RuleProps.someXs) false {} farSet).1 = .error .indexError ∧
      farSet.rules.map (fun m => m.rule.fitted) = [false, false, false] ∧
      (fit someRs someY (some RuleProps.someXs) false {} farSet).2.rules.map (fun m => m.rule.fitted) = [true, false, false] :=
  ⟨by decide +kernel, by decide +kernel, by decide +kernel⟩

/-- A fitted ruleset with a bad rule -/
def withBad : RuleSet := (RuleSet.init someRs (fittedRules.rules ++ [badMember 2 [0, 1, 1, 0]]) true (RuleSet.blank false)).2

/-- **C90 is false of `eval`:** with weights which are all zero `eval` raises `ValueError` when it computes the criterion, and the bad rule is already gone. -/
theorem C90_eval_false :
    (eval someRs someY (some RuleProps.someXs) false (some (.series (VoteProps.someWeights 0 0 0))) false {} withBad).1 = .error .valueError ∧
      withBad.rules.length = 3 ∧
      (eval someRs someY (some RuleProps.someXs) false (some (.series (VoteProps.someWeights 0 0 0))) false {} withBad).2.rules.length = 2 :=
  ⟨by decide +kernel, by decide +kernel, by decide +kernel⟩

/-! ## sort -/

/-- **C90 (sorting), partial.** When `sort` raises and the ruleset does not stack activations, the ruleset is as it was.
Missing: with stacked activations the rules are already sorted (`C90_sort_false`). -/
theorem C90_sort_partial {criterion : Option String} {reverse : Bool} {s s' : RuleSet} {e : Err} (hs : s.stack = false)
    (h : sort R criterion reverse s = (.error e, s')) : s' = s := by
  unfold sort at h
  rw [Py.bind_ok (Py.get_run s)] at h
  split at h
  · cases h
  · cases hr : sortedRules R criterion reverse s with
    | error e' =>
      rw [hr] at h
      cases h
      rfl
    | ok l =>
      rw [Py.bind_ok (a := l) (s' := s) (by rw [Py.ofExcept_run, hr]), Py.bind_ok (Py.modify_run _ _)] at h
      unfold stackIf at h
      rw [Py.bind_ok (Py.get_run _), if_neg (by simp [hs])] at h
      cases h

/-- **C90 (sorting).** Whatever `sort` raises, no rule is lost and none is added, and only the order of the rules can be another one. -/
theorem C90_sort {criterion : Option String} {reverse : Bool} {s s' : RuleSet} {e : Err}
    (h : sort R criterion reverse s = (.error e, s')) : ∃ l, l.Perm s.rules ∧ s' = { s with rules := l } := by
  unfold sort at h
  rw [Py.bind_ok (Py.get_run s)] at h
  split at h
  · cases h
  · cases hr : sortedRules R criterion reverse s with
    | error e' =>
      rw [hr] at h
      cases h
      exact ⟨s.rules, .refl _, rfl⟩
    | ok l =>
      refine ⟨l, sortedRules_perm hr, ?_⟩
      rw [Py.bind_ok (a := l) (s' := s) (by rw [Py.ofExcept_run, hr]), Py.bind_ok (Py.modify_run _ _)] at h
      unfold stackIf at h
      rw [Py.bind_ok (Py.get_run _)] at h
      split at h
      · unfold reorderStacked at h
        rw [Py.bind_ok (Py.get_run _)] at h
        cases hc : s.stacked with
        | none =>
          simp only [hc] at h
          cases h
          rfl
        | some c =>
          simp only [hc] at h
          cases hsel : selectColumns c (l.map fun m => R.condStr m.rule.cond) with
          | error e' =>
            rw [hsel] at h
            cases h
            rfl
          | ok c' =>
            rw [hsel] at h
            cases h
      · cases h

/-- Sorting by an attribute which rules do not have -/
example : (started [member 3 [1, 1, 0], member 1 [0, 0, 1]] false).stack = false ∧
    (sort someRs (some "nothing") false (started [member 3 [1, 1, 0], member 1 [0, 0, 1]] false)).1 = .error .valueError := by
  decide +kernel

/-- **C90 is false of `sort`** of a ruleset which stacks activations and has none: it raises `TypeError` and the rules are in another order. -/
theorem C90_sort_false :
    let s := { started [member 3 [1, 1, 0], member 1 [0, 0, 1]] true with stacked := none }
    (sort someRs none false s).1 = .error .typeError ∧ s.rules.map (fun m => m.rule.cond.bmins) = [some [.fin 3], some [.fin 1]] ∧
      (sort someRs none false s).2.rules.map (fun m => m.rule.cond.bmins) = [some [.fin 1], some [.fin 3]] := by
  decide +kernel

/-! ## Adding rules -/

/-- **C90 (adding a rule), partial.** When `+= rule` raises, the ruleset is as it was, or the rule is its last rule; the other rules and the settings are as
they were.
Missing: the rule may stay (`C32_length_false`). -/
theorem C90_add_partial {m : Member} {s s' : RuleSet} {e : Err} (h : iaddRule R m s = (.error e, s')) :
    s' = s ∨ (s'.rules = s.rules ++ [m] ∧ s'.compute = s.compute ∧ s'.stack = s.stack) := by
  unfold iaddRule at h
  rcases hp : pushRule m s with ⟨e' | u, s1⟩
  · rw [Py.bind_err hp] at h
    rcases pushRule_cases hp with h1 | ⟨h1, -⟩
    · cases h1
      cases h
      exact .inl rfl
    · cases h1
  · rw [Py.bind_ok hp] at h
    have hst := ((steady_noteIndexes (R := R) m.rule.cond.indexes).bind fun _ => (steady_noteNames (R := R) m.rule.cond.names).bind fun _ =>
      (steady_updateIf (R := R) m.rule.act).bind fun _ => steady_stackIf (steady_stackRule (R := R) m.rule)) s1
    rw [h] at hst
    rcases pushRule_cases hp with h1 | ⟨-, h1, h2, h3⟩
    · cases h1
    · exact .inr ⟨hst.1.trans h1, hst.2.1.trans h2, hst.2.2.trans h3⟩

/-- **C90 (adding a ruleset), partial.** The same of `+= ruleset`, whose rules are then the last ones.
Missing: they may stay. -/
theorem C90_add_set_partial {o s s' : RuleSet} {e : Err} (h : iaddSet R o s = (.error e, s')) :
    s' = s ∨ (s'.rules = s.rules ++ o.rules ∧ s'.compute = s.compute ∧ s'.stack = s.stack) := by
  unfold iaddSet at h
  rcases hp : pushSet o s with ⟨e' | u, s1⟩
  · rw [Py.bind_err hp] at h
    rcases pushSet_cases hp with h1 | ⟨h1, -⟩
    · cases h1
      cases h
      exact .inl rfl
    · cases h1
  · rw [Py.bind_ok hp] at h
    have hst := ((steady_noteIndexes (R := R) (some o.indexes)).bind fun _ => (steady_noteNames (R := R) (some o.names)).bind fun _ =>
      (steady_updateIf (R := R) o.available).bind fun _ => steady_stackIf (steady_stackSet o)) s1
    rw [h] at hst
    rcases pushSet_cases hp with h1 | ⟨-, h1, h2, h3⟩
    · cases h1
    · exact .inr ⟨hst.1.trans h1, hst.2.1.trans h2, hst.2.2.trans h3⟩

/-- Activations of different lengths -/
example : (iaddRule someRs (member 2 [1, 1]) twoRules).1 = .error .valueError ∧
    (iaddSet someRs (started [member 2 [1, 1]] false) twoRules).1 = .error .valueError ∧ twoRules.rules.length = 2 := by
  decide +kernel

end Verif.FailProps
