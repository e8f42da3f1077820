import Verif.RuleFailLemmas
import Verif.OneRuleProps
import Verif.RuleFlagProps

/-!
# C92: rules after a fit or eval which raised
-/

namespace Verif.RuleFailProps

open Verif Spec RuleFail

/-- **C92 (fit), partial.** A `fit` of a rule which raises leaves the condition, the flags, the criterion and the size of the test set as they were.
Missing: the activation, the size of the train set and the figures computed before the error (`C92_fit_false`). -/
theorem C92_fit_partial {E : Env} {y : List Label} {xs : Option Xs} {force : Bool} {kw : Rule.Kw} {r r' : Rule} {e : Err}
    (h : Rule.fit E y xs force kw r = (.error e, r')) : FitKept r r' := by
  have : OnError FitKept (Rule.fit E y xs force kw) := by
    unfold Rule.fit
    split
    · exact (never_throw fitKept _).onError
    refine never_bindError fitKept (never_get fitKept) fun r => ?_
    split
    · exact (never_pure fitKept _).onError
    split
    · exact (never_pure fitKept _).onError
    · exact never_bindError fitKept (never_calcActivation fitKept E xs fun _ _ => ⟨rfl, rfl, rfl, rfl, rfl⟩) fun _ =>
        never_bindError fitKept (fit_loop E y kw force) fun _ => never_bindError fitKept (never_checkAllIfGood fitKept E) fun _ => onError_modify _
  exact this r e r' h

/-- **C92 (eval), partial.** An `eval` of a rule which raises leaves the condition, the flags, the prediction and everything else from the train set as
they were.
Missing: the activation and the criterion (`C92_eval_false`). -/
theorem C92_eval_partial {E : Env} {y : List Label} {xs : Option Xs} {recompute force : Bool} {kw : Rule.Kw} {r r' : Rule} {e : Err}
    (h : Rule.eval E y xs recompute force kw r = (.error e, r')) : EvalKept r r' := by
  have : OnError EvalKept (Rule.eval E y xs recompute force kw) := by
    unfold Rule.eval
    split
    · exact (never_throw evalKept _).onError
    refine never_bindError evalKept (never_get evalKept) fun r => ?_
    split
    · exact onError_modify _
    split
    · exact (never_pure evalKept _).onError
    · exact never_bindError evalKept (eval_activation E xs recompute) fun v =>
        never_bindError evalKept (eval_loop E y v kw force) fun _ => never_bindError evalKept (never_checkAllIfGood evalKept E) fun _ => onError_modify _
  exact this r e r' h

/-- **C92 (refused calls).** With `method` among the keywords, `fit` and `eval` raise and leave the rule as it was; so do they when the activation cannot
be computed from the features, and an `eval` of a rule without activation which does not compute one. -/
theorem C92_refused (E : Env) (y : List Label) (force : Bool) (kw : Rule.Kw) (r : Rule) :
    (kw.hasMethod = true → ∀ xs recompute, Rule.fit E y xs force kw r = (.error .indexError, r) ∧
      Rule.eval E y xs recompute force kw r = (.error .indexError, r)) ∧
    (∀ x e, kw.hasMethod = false → x.length ≠ 0 → r.evaluateActivation E x = .error e → Rule.fit E y (some x) force kw r = (.error e, r)) ∧
    (∀ x e, kw.hasMethod = false → x.length ≠ 0 → r.good = true ∨ force = true → r.evaluateActivation E x = .error e →
      Rule.eval E y (some x) true force kw r = (.error e, r) ∧ (r.act ≠ none → Rule.eval E y (some x) false force kw r = (.error e, r))) ∧
    (∀ xs, kw.hasMethod = false → (∀ x, xs = some x → x.length ≠ 0) → r.good = true ∨ force = true → r.act = none →
      Rule.eval E y xs false force kw r = (.error .valueError, r)) := by
  have hcalc : ∀ x e, x.length ≠ 0 → r.evaluateActivation E x = .error e → Rule.calcActivation E (some x) r = (.error e, r) := by
    intro x e hx he
    unfold Rule.calcActivation
    simp only
    rw [if_neg hx, Py.bind_ok (Py.get_run r), he]
    exact Py.bind_err (Py.ofExcept_run _ _)
  have hgood : r.good = true ∨ force = true → ¬ (!r.good && !force) = true := by
    rintro (h | h) <;> simp [h]
  refine ⟨fun hm xs recompute => ?_, fun x e hm hx he => ?_, fun x e hm hx hg he => ⟨?_, fun ha => ?_⟩, fun xs hm hx hg ha => ?_⟩
  · unfold Rule.fit Rule.eval
    rw [if_pos hm, if_pos hm]
    exact ⟨rfl, rfl⟩
  · unfold Rule.fit
    rw [if_neg (by simp [hm]), Py.bind_ok (Py.get_run r), if_neg (by simp), if_neg (by simpa using hx)]
    exact Py.bind_err (hcalc x e hx he)
  · unfold Rule.eval
    rw [if_neg (by simp [hm]), Py.bind_ok (Py.get_run r), if_neg (hgood hg), if_neg (by simpa using hx)]
    exact Py.bind_err (Py.bind_err (hcalc x e hx he))
  · unfold Rule.eval
    rw [if_neg (by simp [hm]), Py.bind_ok (Py.get_run r), if_neg (hgood hg), if_neg (by simpa using hx)]
    refine Py.bind_err ?_
    have : Rule.recomputeIf E (some x) false r = (.ok (), r) := rfl
    unfold Rule.evalActivation
    rw [Py.bind_ok this, Py.bind_ok (Py.get_run r)]
    cases ho : r.act with
    | none => exact absurd ho ha
    | some own =>
      simp only [he]
      rfl
  · unfold Rule.eval
    rw [if_neg (by simp [hm]), Py.bind_ok (Py.get_run r), if_neg (hgood hg), if_neg]
    · refine Py.bind_err ?_
      have : Rule.recomputeIf E xs false r = (.ok (), r) := rfl
      unfold Rule.evalActivation
      rw [Py.bind_ok this, Py.bind_ok (Py.get_run r), ha]
      rfl
    · intro hc
      rw [Option.any_eq_true] at hc
      obtain ⟨x, h1, h2⟩ := hc
      exact hx x h1 (by simpa using h2)

/-- A rule which has been fitted: active at the first two of three points, where the mean is 2 -/
def known : Rule := { VoteProps.voter 0 [1, 1, 0] (.num (.fin 2)) with fitted := true, trainSize := .num (.fin 3) }

/-- Two points, the first one outside the rule -/
def twoPoints : Xs := .arr ⟨1, [[.fin 12], [.fin 3]]⟩

/-- The environment of regression rules -/
def regEnv : Env := RuleSetProps.someRs.ofKind .regression

/-- A text among the targets makes `fit` raise after it has the activation. -/
example : (Rule.fit regEnv [.num (.fin 5), .text "b"] (some twoPoints) false {} known).1 = .error .typeError ∧
    (Rule.eval regEnv [.num (.fin 5), .text "b"] (some twoPoints) true false {} known).1 = .error .typeError ∧
    known.evaluateActivation regEnv (.arr ⟨0, [[], []]⟩) = .error .indexError :=
  ⟨by decide +kernel, by decide +kernel, by decide +kernel⟩

/-- **C92 is false of fit:** the targets are refused, and the rule, which still counts as fitted, has the activation and the number of the new points and
the prediction of the old ones. -/
theorem C92_fit_false :
    let p := Rule.fit regEnv [.num (.fin 5), .text "b"] (some twoPoints) false {} known
    p.1 = .error .typeError ∧ known.act = some [1, 1, 0] ∧ known.trainSize = .num (.fin 3) ∧
      p.2.act = some [0, 1] ∧ p.2.trainSize = .num (.fin 2) ∧ p.2.prediction = .label (.num (.fin 2)) ∧ p.2.fitted = true :=
  ⟨by decide +kernel, by decide +kernel, by decide +kernel, by decide +kernel, by decide +kernel, by decide +kernel, by decide +kernel⟩

/-- **C92 is false of eval:** the targets are refused, and the rule has the activation of the new points. -/
theorem C92_eval_false :
    let p := Rule.eval regEnv [.num (.fin 5), .text "b"] (some twoPoints) true false {} known
    p.1 = .error .typeError ∧ known.act = some [1, 1, 0] ∧ p.2.act = some [0, 1] ∧ p.2.evaluated = false :=
  ⟨by decide +kernel, by decide +kernel, by decide +kernel, by decide +kernel⟩

end Verif.RuleFailProps
