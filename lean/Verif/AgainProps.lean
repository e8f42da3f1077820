import Verif.AgainLemmas
import Verif.RuleFlagProps

/-!
# C68: fitting or evaluating a rule again

The specification is plain: the same call once more succeeds and leaves the rule as it is.  `Rule.log` is not in the code, it records the
checks for C17, so the rules are compared without it.
-/

namespace Verif.AgainProps

open Verif Rule Again RuleProps RuleFlagProps

/-- The names of the attributes with which `fit` and `eval` work are in `dir(rule)`. -/
def Listed (E : Env) : Prop :=
  ∀ a ∈ ["coverage", "train_set_size", "prediction", "std", "sign", "zscore", "criterion"], a ∈ E.names

theorem Listed.train {E : Env} (h : Listed E) : ∀ a ∈ "coverage" :: trainAttrs E.kind, a ∈ E.names := by
  intro a ha
  refine h a ?_
  cases hk : E.kind <;> rw [hk] at ha <;> simp only [trainAttrs, List.mem_cons, List.not_mem_nil, or_false] at ha ⊢ <;> tauto

theorem Listed.test {E : Env} (h : Listed E) : ∀ a ∈ "coverage" :: testAttrs E.kind, a ∈ E.names := by
  intro a ha
  refine h a ?_
  cases hk : E.kind <;> rw [hk] at ha <;> simp only [testAttrs, List.mem_cons, List.not_mem_nil, or_false] at ha ⊢ <;> tauto

/-- The environment of the examples, with all these names and a threshold on the prediction. -/
def listedEnv (kind : Kind) (least : Rat) : Env :=
  { someEnv kind with
    names := ["coverage", "criterion", "prediction", "sign", "std", "train_set_size", "zscore"],
    thresholds := some [("coverage", [("min", .num (.fin (1 / 2)))]), ("prediction", [("min", .num (.fin least))])] }

theorem listedEnv_listed (kind : Kind) (least : Rat) : Listed (listedEnv kind least) := by
  intro a ha
  simp only [List.mem_cons, List.not_mem_nil, or_false] at ha
  simp only [listedEnv, List.mem_cons, List.not_mem_nil, or_false]
  tauto

/-- **C68 (fit, partial).** When `fit` leaves a good rule, the same `fit` once more (also with the other `force_if_not_good`) succeeds and
changes nothing.  Missing: rules which became bad, where it is false (`C68_bad_false`). -/
theorem C68_fit_partial {E : Env} {y : List Label} {xs : Option Xs} {force force' : Bool} {kw : Kw} {r r' : Rule} (hE : Listed E)
    (h : fit E y xs force kw r = (.ok (), r')) (hg : r'.good = true) :
    ∃ k, fit E y xs force' kw r' = (.ok (), { r' with log := k }) := by
  by_cases hr : Runs r xs
  · exact fit_still hE.train h hg hr r'.log
  · have hm := fit_hasMethod h
    rw [fit_skipped hm hr] at h
    cases h
    exact ⟨r.log, fit_skipped hm hr⟩

example :
    let E := listedEnv .regression 1
    Listed E ∧ (fit E fourY (some someXs) false {} newRule).1 = .ok () ∧ (fit E fourY (some someXs) false {} newRule).2.good = true ∧
      (fit E fourY (some someXs) false {} newRule).2.prediction = .label (.num (.fin 2)) :=
  ⟨listedEnv_listed _ _, by decide +kernel⟩

/-- **C68, violation.** The second `fit` of a rule which its first `fit` rejected raises nothing and erases the prediction which the first one
had computed. -/
theorem C68_bad_false :
    ∃ (E : Env) (y : List Label) (xs : Xs) (r r' r'' : Rule), Listed E ∧ fit E y (some xs) false {} r = (.ok (), r') ∧
      fit E y (some xs) false {} r' = (.ok (), r'') ∧ r'.prediction = .label (.num (.fin 2)) ∧ r''.prediction = .label (.num .nan) ∧
      r'.trainSize = .num (.fin 4) ∧ r''.trainSize = .num .nan := by
  refine ⟨listedEnv .regression 3, fourY, someXs, newRule, _, _, listedEnv_listed _ _, Prod.ext ?_ rfl, Prod.ext ?_ rfl, ?_⟩ <;> decide +kernel

/-- **C68 (eval).** When `eval` leaves a good rule, the same `eval` once more (also with the other `force_if_not_good`) succeeds and changes
nothing. -/
theorem C68_eval {E : Env} {y : List Label} {xs : Option Xs} {rc force force' : Bool} {kw : Kw} {r r' : Rule} (hE : Listed E)
    (h : eval E y xs rc force kw r = (.ok (), r')) (hg : r'.good = true) :
    ∃ k, eval E y xs rc force' kw r' = (.ok (), { r' with log := k }) := by
  by_cases hx : ∀ x, xs = some x → x.length ≠ 0
  · exact eval_still hE.test h hg hx r'.log
  · push Not at hx
    obtain ⟨x, rfl, hx⟩ := hx
    have hg0 : r.good = true := (keeps_eval E y (some x) rc force kw).good h hg
    have hm := eval_hasMethod h
    rw [eval_skipped hm hg0 hx] at h
    cases h
    exact ⟨r.log, eval_skipped hm hg hx⟩

example :
    let E := listedEnv .regression 1
    let r := (fit E fourY (some someXs) false {} newRule).2
    Listed E ∧ (eval E otherY (some someXs) true false {} r).1 = .ok () ∧ (eval E otherY (some someXs) true false {} r).2.good = true ∧
      (eval E otherY (some someXs) true false {} r).2.criterion ≠ .none :=
  ⟨listedEnv_listed _ _, by decide +kernel⟩

/-- Repeated calls: `true` is `fit`, `false` is `eval`. -/
def repeated (fit eval : Py Rule Unit) : List Bool → Py Rule Unit
  | [] => pure ()
  | b :: l => (if b then fit else eval) >>= fun _ => repeated fit eval l

/-- **C68 (fit and eval).** When a rule is good after `fit` on the training set and `eval` on a test set (which keeps the activation), repeating
these two calls in any order, any number of times, succeeds and changes nothing. -/
theorem C68_repeated {E : Env} {y y₂ : List Label} {xs : Option Xs} {xs₂ : Xs} {force force₂ : Bool} {kw kw₂ : Kw} {r r' r'' : Rule}
    (hE : Listed E) (hr : Runs r xs) (hx : xs₂.length ≠ 0) (h : fit E y xs force kw r = (.ok (), r'))
    (h₂ : eval E y₂ (some xs₂) false force₂ kw₂ r' = (.ok (), r'')) (hg : r''.good = true) (l : List Bool) :
    ∃ k, repeated (fit E y xs force kw) (eval E y₂ (some xs₂) false force₂ kw₂) l r'' = (.ok (), { r'' with log := k }) := by
  have hx' : ∀ x, some xs₂ = some x → x.length ≠ 0 := by rintro _ ⟨⟩; exact hx
  have hg' : r'.good = true := (keeps_eval E y₂ (some xs₂) false force₂ kw₂).good h₂ hg
  have hf : r'.fitted = true := (C63_fit hr h).1
  obtain ⟨hp, hf'⟩ := eval_passes h₂ hg hx'
  have s1 : Still r'' (fit E y xs force kw) () := fit_still_same hE.train h hg' hr (eval_sameFit h₂) hg hp (hf'.trans hf)
  have s2 := eval_still (force' := force₂) hE.test h₂ hg hx'
  have : Still r'' (repeated (fit E y xs force kw) (eval E y₂ (some xs₂) false force₂ kw₂) l) () := by
    induction l with
    | nil => exact .pure _
    | cons b l ih =>
      unfold repeated
      refine .bind (a := ()) ?_ ih
      cases b
      · exact s2
      · exact s1
  exact this r''.log

example :
    let E := listedEnv .regression 1
    let r' := (fit E fourY (some someXs) false {} newRule).2
    let r'' := (eval E otherY (some someXs) false false {} r').2
    Runs newRule (some someXs) ∧ (fit E fourY (some someXs) false {} newRule).1 = .ok () ∧
      (eval E otherY (some someXs) false false {} r').1 = .ok () ∧ r''.good = true ∧
      (repeated (fit E fourY (some someXs) false {}) (eval E otherY (some someXs) false false {}) [true, false, false, true] r'').2.criterion =
        r''.criterion := by
  refine ⟨?_, ?_⟩
  · show someXs.length ≠ 0
    decide
  · decide +kernel

/-- **C68 (fit afresh).** What `fit` computes does not depend on what was fitted or evaluated before: two rules with the same condition which
both go through (good, or with `force_if_not_good`) get the same activation, coverage, prediction and figures. -/
theorem C68_fresh {E : Env} {y : List Label} {xs : Xs} {force force' : Bool} {kw : Kw} {r q r' q' : Rule} (hx : xs.length ≠ 0)
    (hc : r.cond = q.cond) (h : fit E y (some xs) force kw r = (.ok (), r')) (h' : fit E y (some xs) force' kw q = (.ok (), q'))
    (hg : r'.good = true ∨ force = true) (hg' : q'.good = true ∨ force' = true) :
    r'.act = q'.act ∧ r'.getCoverage = q'.getCoverage ∧ r'.prediction = q'.prediction ∧ r'.trainSize = q'.trainSize ∧
      (E.kind = .regression → r'.std = q'.std ∧ r'.sign = q'.sign ∧ r'.zscore = q'.zscore) := by
  have hev : r.evaluateActivation E xs = q.evaluateActivation E xs := by
    unfold evaluateActivation
    rw [hc]
  cases hk : E.kind with
  | regression =>
    obtain ⟨v, ys, m, var, hv, hy, hme, hva, hd⟩ := fit_regression hk (xs := some xs) hx h hg
    obtain ⟨v', ys', m', var', hv', hy', hme', hva', hd'⟩ := fit_regression hk (xs := some xs) hx h' hg'
    have e1 : v' = v := by
      have a : r.evaluateActivation E xs = .ok v := hv
      have b : q.evaluateActivation E xs = .ok v' := hv'
      rw [← hev, a] at b
      exact (Except.ok.inj b).symm
    subst e1
    rw [hy] at hy'
    cases hy'
    rw [hme] at hme'
    cases hme'
    rw [hva] at hva'
    cases hva'
    have a1 : r'.act = q'.act := ((congrArg Rule.act hd :) : r'.act = _).trans ((congrArg Rule.act hd' :) : q'.act = _).symm
    have a2 : r'.actCoverage = q'.actCoverage :=
      ((congrArg Rule.actCoverage hd :) : r'.actCoverage = _).trans ((congrArg Rule.actCoverage hd' :) : q'.actCoverage = _).symm
    refine ⟨a1, ?_, ?_, ?_, fun _ => ⟨?_, ?_, ?_⟩⟩
    · have b1 : r'.act = some v' := (congrArg Rule.act hd :)
      simp only [getCoverage, ← a1, ← a2, b1]
    · exact ((congrArg Rule.prediction hd :) : r'.prediction = _).trans ((congrArg Rule.prediction hd' :) : q'.prediction = _).symm
    · exact ((congrArg Rule.trainSize hd :) : r'.trainSize = _).trans ((congrArg Rule.trainSize hd' :) : q'.trainSize = _).symm
    · exact ((congrArg Rule.std hd :) : r'.std = _).trans ((congrArg Rule.std hd' :) : q'.std = _).symm
    · exact ((congrArg Rule.sign hd :) : r'.sign = _).trans ((congrArg Rule.sign hd' :) : q'.sign = _).symm
    · exact ((congrArg Rule.zscore hd :) : r'.zscore = _).trans ((congrArg Rule.zscore hd' :) : q'.zscore = _).symm
  | classification =>
    obtain ⟨v, p, hv, hp, hd⟩ := fit_classification hk (xs := some xs) hx h hg
    obtain ⟨v', p', hv', hp', hd'⟩ := fit_classification hk (xs := some xs) hx h' hg'
    have e1 : v' = v := by
      have a : r.evaluateActivation E xs = .ok v := hv
      have b : q.evaluateActivation E xs = .ok v' := hv'
      rw [← hev, a] at b
      exact (Except.ok.inj b).symm
    subst e1
    rw [hp] at hp'
    cases hp'
    have a1 : r'.act = q'.act := ((congrArg Rule.act hd :) : r'.act = _).trans ((congrArg Rule.act hd' :) : q'.act = _).symm
    have a2 : r'.actCoverage = q'.actCoverage :=
      ((congrArg Rule.actCoverage hd :) : r'.actCoverage = _).trans ((congrArg Rule.actCoverage hd' :) : q'.actCoverage = _).symm
    refine ⟨a1, ?_, ?_, ?_, fun e => by cases e⟩
    · have b1 : r'.act = some v' := (congrArg Rule.act hd :)
      simp only [getCoverage, ← a1, ← a2, b1]
    · exact ((congrArg Rule.prediction hd :) : r'.prediction = _).trans ((congrArg Rule.prediction hd' :) : q'.prediction = _).symm
    · exact ((congrArg Rule.trainSize hd :) : r'.trainSize = _).trans ((congrArg Rule.trainSize hd' :) : q'.trainSize = _).symm

/-- A rule fitted on other targets and evaluated before. -/
example :
    let E := listedEnv .regression 1
    let q := (eval E fourY (some someXs) true false {} (fit E otherY (some someXs) false {} newRule).2).2
    newRule.cond = q.cond ∧ q.prediction ≠ newRule.prediction ∧ (fit E fourY (some someXs) false {} q).1 = .ok () ∧
      (fit E fourY (some someXs) false {} q).2.good = true ∧
      (fit E fourY (some someXs) false {} q).2.prediction ≠ q.prediction := by
  decide +kernel

end Verif.AgainProps
