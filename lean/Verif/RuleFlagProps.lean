import Verif.RuleFlagLemmas
import Verif.RuleProps

/-!
# C63: the flags and the sizes of a rule tell how it was fitted and evaluated
-/

namespace Verif.RuleFlagProps

open Verif Rule RuleFlag RuleProps

/-- **C63 (fit).** A `fit` which has something to do and does not raise leaves a rule which says that it is fitted, and which
knows the number of targets when it is still good (or with `force_if_not_good`). -/
theorem C63_fit {E : Env} {y : List Label} {xs : Option Xs} {force : Bool} {kw : Kw} {r r' : Rule} (hx : Runs r xs)
    (h : fit E y xs force kw r = (.ok (), r')) :
    r'.fitted = true ∧ (r'.good = true ∨ force = true → r'.trainSize = .num (.fin y.length)) := by
  constructor
  · obtain ⟨r1, r2, r3, -, -, -, rfl⟩ := fit_steps hx h
    rfl
  · intro hg
    cases hk : E.kind with
    | regression =>
      obtain ⟨v, ys, m, var, -, -, -, -, hd⟩ := fit_regression hk hx h hg
      exact congrArg Rule.trainSize hd
    | classification =>
      obtain ⟨v, p, -, -, hd⟩ := fit_classification hk hx h hg
      exact congrArg Rule.trainSize hd

/-- **C63 (fit of a bad rule).** A `fit` without `force_if_not_good` of a rule which is bad already, when it does not raise, leaves
NaN for all the figures of the training set. -/
theorem C63_fit_bad {E : Env} {y : List Label} {xs : Option Xs} {kw : Kw} {r r' : Rule} (hx : Runs r xs)
    (hb : r.good = false) (h : fit E y xs false kw r = (.ok (), r')) :
    r'.good = false ∧ r'.fitted = true ∧ r'.trainSize = .num .nan ∧ r'.prediction = .label (.num .nan) ∧
      (E.kind = .regression → r'.std = .num .nan ∧ r'.sign = .num .nan ∧ r'.zscore = .num .nan) := by
  obtain ⟨r1, r2, r3, h1, h2, h3, rfl⟩ := fit_steps hx h
  have b1 : r1.good = false := by
    cases hg : r1.good with
    | false => rfl
    | true => rw [(keeps_calcActivation E xs).good h1 hg] at hb; cases hb
  rw [attrLoop_bad E _ _ _ b1] at h2
  have e2 : r2 = (trainAttrs E.kind).foldl (fun r a => setNaN a r) r1 := (congrArg Prod.snd h2).symm
  have b2 : r2.good = false := by rw [e2]; exact (foldl_setNaN_keeps _ r1).2.1.trans b1
  have e3 : r3 = r2 := by
    have := h3
    rw [checkAllIfGood, Py.bind_run] at this
    simp only [Py.get_run, b2, Bool.false_eq_true, if_false, Py.pure_run] at this
    exact (congrArg Prod.snd this).symm
  subst e3
  refine ⟨b2, rfl, ?_, ?_, ?_⟩
  · show r3.trainSize = _
    rw [e2]; cases E.kind <;> rfl
  · show r3.prediction = _
    rw [e2]; cases E.kind <;> rfl
  · intro hk
    show r3.std = _ ∧ r3.sign = _ ∧ r3.zscore = _
    rw [e2, hk]
    exact ⟨rfl, rfl, rfl⟩

/-- **C63 (fit leaves alone).** `fit` changes neither the condition nor what comes from an evaluation, whether it raises or
not. -/
theorem C63_fit_leaves (E : Env) (y : List Label) (xs : Option Xs) (force : Bool) (kw : Kw) (r : Rule) :
    let r' := (fit E y xs force kw r).2
    r'.cond = r.cond ∧ r'.criterion = r.criterion ∧ r'.testSize = r.testSize ∧ r'.evaluated = r.evaluated := by
  have := leaves_fit (f := fun r : Rule => (r.cond, r.criterion, r.testSize, r.evaluated))
    (fun _ _ e => by have := congrArg (fun r : Rule => (r.cond, r.criterion, r.testSize, r.evaluated)) e; exact this)
    E y xs force kw (fun _ _ _ => rfl) (fun _ _ => rfl) (fun _ _ => rfl) (fun _ _ => rfl) (fun _ _ => rfl) (fun _ _ => rfl)
    (fun _ _ => rfl) r
  simpa only [Prod.mk.injEq] using this

/-- **C63 (eval leaves alone).** `eval` changes neither the condition nor what comes from the training set (prediction, standard
deviation, sign, z-score and size), whether it raises or not; and not the activation either, unless it has to be computed
again. -/
theorem C63_eval_leaves (E : Env) (y : List Label) (xs : Option Xs) (rc force : Bool) (kw : Kw) (r : Rule) :
    let r' := (eval E y xs rc force kw r).2
    r'.cond = r.cond ∧ r'.prediction = r.prediction ∧ r'.std = r.std ∧ r'.sign = r.sign ∧ r'.zscore = r.zscore ∧
      r'.trainSize = r.trainSize ∧ (rc = false → r'.act = r.act ∧ r'.actCoverage = r.actCoverage) := by
  have h1 := leaves_eval (f := fun r : Rule => (r.cond, r.prediction, r.std, r.sign, r.zscore, r.trainSize))
    (fun _ _ e => by have := congrArg (fun r : Rule => (r.cond, r.prediction, r.std, r.sign, r.zscore, r.trainSize)) e; exact this)
    E y xs rc force kw (fun _ _ _ _ => rfl) (fun _ _ => rfl) (fun _ _ => rfl) (fun _ _ => rfl) r
  simp only [Prod.mk.injEq] at h1
  obtain ⟨a1, a2, a3, a4, a5, a6⟩ := h1
  refine ⟨a1, a2, a3, a4, a5, a6, fun hrc => ?_⟩
  have h2 := leaves_eval (f := fun r : Rule => (r.act, r.actCoverage))
    (fun _ _ e => by have := congrArg (fun r : Rule => (r.act, r.actCoverage)) e; exact this)
    E y xs rc force kw (fun h => by rw [hrc] at h; cases h) (fun _ _ => rfl) (fun _ _ => rfl) (fun _ _ => rfl) r
  simpa only [Prod.mk.injEq] using h2

/-- **C63 (eval).** An `eval` with points to work on which does not raise, of a good rule (or with `force_if_not_good`), leaves
a rule which says that it is evaluated.  Missing: bad rules (`C63_bad_false`), and the size of the test set (`C63_size_false`). -/
theorem C63_eval_partial {E : Env} {y : List Label} {xs : Option Xs} {rc force : Bool} {kw : Kw} {r r' : Rule}
    (hx : ∀ x, xs = some x → x.length ≠ 0) (hg : r.good = true ∨ force = true)
    (h : eval E y xs rc force kw r = (.ok (), r')) : r'.evaluated = true ∧ r'.fitted = r.fitted := by
  obtain ⟨v, r1, r2, r3, h1, h2, h3, rfl⟩ := eval_steps hx hg h
  refine ⟨rfl, ?_⟩
  have hf : OfData Rule.fitted := fun r r' e => by have := congrArg Rule.fitted e; exact this
  have e1 := leaves_evalActivation hf E xs rc (fun _ _ _ _ => rfl) r
  have ht : testAttrs E.kind = ["criterion"] := by cases E.kind <;> rfl
  have e2 := leaves_attrLoop (f := Rule.fitted) (force := force) (l := testAttrs E.kind) (compute := calcTest E y v kw) hf E
    (fun a ha => by
      rw [ht] at ha
      obtain rfl := List.mem_singleton.1 ha
      exact leaves_calcCriterion hf E y v kw fun _ _ => rfl)
    (fun a ha r => by
      rw [ht] at ha
      obtain rfl := List.mem_singleton.1 ha
      rfl) r1
  have e3 := leaves_checkAllIfGood hf E r2
  rw [h1] at e1
  rw [h2] at e2
  rw [h3] at e3
  exact e3.trans (e2.trans e1)

/-- **C63 (eval of a bad rule).** An `eval` without `force_if_not_good` of a bad rule only makes its criterion NaN, and says that
the rule is fitted. -/
theorem C63_eval_bad (E : Env) (y : List Label) (xs : Option Xs) (rc : Bool) (kw : Kw) (r : Rule) (hm : kw.hasMethod = false)
    (hb : r.good = false) :
    eval E y xs rc false kw r = (.ok (), { r with criterion := .num .nan, fitted := true }) := by
  have ht : testAttrs E.kind = ["criterion"] := by cases E.kind <;> rfl
  unfold eval
  rw [if_neg (by simp [hm]), Py.bind_run]
  simp only [Py.get_run, hb, Bool.not_false, Bool.and_self, if_true, Py.modify_run, ht]
  rfl

/-- **C63 (size of the test set).** `eval` never computes it, whether it raises or not. -/
theorem C63_size (E : Env) (y : List Label) (xs : Option Xs) (rc force : Bool) (kw : Kw) (r : Rule) :
    (eval E y xs rc force kw r).2.testSize = r.testSize :=
  leaves_eval (f := Rule.testSize) (fun _ _ e => by have := congrArg Rule.testSize e; exact this) E y xs rc force kw (fun _ _ _ _ => rfl) (fun _ _ => rfl)
    (fun _ _ => rfl) (fun _ _ => rfl) r

/-- **C63 (asking for the size of the test set).** After `eval` and then `calc_test_set_size`, the attribute `test_set_size` is the
number of targets, every other attribute is what `eval` left, and a later `fit` or `eval`, on whatever data, leaves this size.

Missing: `eval` alone does not set it (`C63_size_false`). -/
theorem C63_size_partial (E : Env) (y : List Label) (xs : Option Xs) (rc force : Bool) (kw : Kw) (r : Rule) :
    ∃ r', calcTestSetSize y (eval E y xs rc force kw r).2 = (.ok (), r') ∧ r'.getattr E "test_set_size" = .ok (.num (.fin y.length)) ∧
      { r' with testSize := (eval E y xs rc force kw r).2.testSize } = (eval E y xs rc force kw r).2 ∧
      (∀ (E' : Env) z xs' rc' force' kw', (eval E' z xs' rc' force' kw' r').2.testSize = .num (.fin y.length)) ∧
      ∀ (E' : Env) z xs' force' kw', (fit E' z xs' force' kw' r').2.testSize = .num (.fin y.length) := by
  refine ⟨_, rfl, rfl, rfl, fun E' z xs' rc' force' kw' => ?_, fun E' z xs' force' kw' => ?_⟩
  · rw [C63_size]
  · rw [(C63_fit_leaves E' z xs' force' kw' _).2.2.1]

/-! ## Examples -/

/-- Four targets -/
def fourY : List Label := [.num (.fin 1), .num (.fin 2), .num (.fin 3), .num (.fin 3)]

/-- Four other targets -/
def otherY : List Label := [.num (.fin 10), .num (.fin 0), .num (.fin 30), .num (.fin 5)]

/-- A rule which has not been fitted -/
def newRule : Rule := (make (someEnv .regression) someCond none).2

/-- The same after `fit` -/
def fittedRule : Rule := (fit (someEnv .regression) fourY (some someXs) false {} newRule).2

/-- The same after `fit` and `eval` -/
def evaluatedRule : Rule := (eval (someEnv .regression) fourY (some someXs) false false {} fittedRule).2

/-- A rule refused because of its coverage -/
def badRule : Rule := (fit (someEnv .regression) fourY (some farXs) false {} newRule).2

/-- `fit` and `eval` of a good rule: sizes, flags and figures. -/
example :
    Runs newRule (some someXs) ∧ (fit (someEnv .regression) fourY (some someXs) false {} newRule).1 = .ok () ∧
      newRule.fitted = false ∧ newRule.trainSize = .none ∧ fittedRule.good = true ∧ fittedRule.trainSize = .num (.fin 4) ∧
      fittedRule.fitted = true ∧ fittedRule.evaluated = false ∧
      (eval (someEnv .regression) fourY (some someXs) false false {} fittedRule).1 = .ok () ∧
      evaluatedRule.evaluated = true ∧ evaluatedRule.prediction = fittedRule.prediction := by
  refine ⟨?_, ?_⟩
  · show someXs.length ≠ 0
    decide
  · decide +kernel

/-- The size of the test set of a rule evaluated on four targets, once asked for. -/
example :
    evaluatedRule.getattr (someEnv .regression) "test_set_size" = .ok .none ∧
      (calcTestSetSize fourY evaluatedRule).2.getattr (someEnv .regression) "test_set_size" = .ok (.num (.fin 4)) := by
  decide +kernel

/-- A rule which is bad already. -/
example :
    Runs badRule (some someXs) ∧ badRule.good = false ∧
      (fit (someEnv .regression) fourY (some someXs) false {} badRule).1 = .ok () ∧
      (eval (someEnv .regression) fourY (some someXs) false false {} badRule).1 = .ok () := by
  refine ⟨?_, ?_⟩
  · show someXs.length ≠ 0
    decide
  · decide +kernel

/-- **C63 is false for the size of the test set**: a rule evaluated on four targets, which says that it is evaluated, has no
size of the test set. -/
theorem C63_size_false :
    ∃ (E : Env) (y : List Label) (xs : Xs) (r r' : Rule), xs.length ≠ 0 ∧ y.length = 4 ∧ r.good = true ∧ r.fitted = true ∧
      eval E y (some xs) false false {} r = (.ok (), r') ∧ r'.good = true ∧ r'.evaluated = true ∧ r'.testSize = .none :=
  ⟨someEnv .regression, fourY, someXs, fittedRule, evaluatedRule, by decide, rfl, by decide +kernel, by decide +kernel,
    Prod.ext (x := eval _ _ _ _ _ _ _) (y := (Except.ok (), _)) (by decide +kernel) rfl, by decide +kernel, by decide +kernel,
    by decide +kernel⟩

/-- **C63 is false for bad rules**: `eval` of a bad rule which has never been fitted says that it is fitted, and does not say
that it is evaluated. -/
theorem C63_bad_false :
    ∃ (E : Env) (y : List Label) (xs : Xs) (r r' : Rule), xs.length ≠ 0 ∧ r.fitted = false ∧ r.prediction = .none ∧
      eval E y (some xs) false false {} r = (.ok (), r') ∧ r'.fitted = true ∧ r'.prediction = .none ∧ r'.evaluated = false ∧
      r'.criterion = .num .nan :=
  ⟨someEnv .regression, fourY, someXs, { newRule with good := false }, _, by decide, by decide +kernel, by decide +kernel,
    C63_eval_bad _ _ _ _ _ _ rfl rfl, rfl, by decide +kernel, by decide +kernel, rfl⟩

/-- **C63 is false for rules fitted again**: the rule still says that it is evaluated, with the criterion of its former
prediction. -/
theorem C63_stale_false :
    ∃ (E : Env) (y : List Label) (xs : Xs) (r r' : Rule) (p q : Rat) (c : Rat), xs.length ≠ 0 ∧ r.prediction = .label (.num (.fin p)) ∧
      r.evaluated = true ∧ r.criterion = .num (.fin c) ∧ fit E y (some xs) false {} r = (.ok (), r') ∧ r'.good = true ∧
      r'.prediction = .label (.num (.fin q)) ∧ p ≠ q ∧ r'.evaluated = true ∧ r'.criterion = .num (.fin c) ∧
      (eval E y (some xs) false false {} r').2.criterion ≠ r'.criterion :=
  ⟨someEnv .regression, otherY, someXs, evaluatedRule, (fit (someEnv .regression) otherY (some someXs) false {} evaluatedRule).2,
    2, 5, 32 / 33, by decide, by decide +kernel, by decide +kernel, by decide +kernel,
    Prod.ext (x := fit _ _ _ _ _ _) (y := (Except.ok (), _)) (by decide +kernel) rfl, by decide +kernel,
    by decide +kernel, by decide, by decide +kernel, by decide +kernel, by decide +kernel⟩

/-- **C63 is false for a rule fitted on other targets without features**: nothing is computed, and nothing is said. -/
theorem C63_again_false :
    ∃ (E : Env) (y : List Label) (r : Rule), r.act ≠ none ∧ fit E y none false {} r = (.ok (), r) ∧
      (fit E y none false {} { r with fitted := false }).1 = .ok () ∧
      (fit E y none false {} { r with fitted := false }).2.prediction ≠ r.prediction :=
  ⟨someEnv .regression, otherY, fittedRule, by decide +kernel, by
    unfold fit
    rw [if_neg (by simp), Py.bind_run]
    have : fittedRule.fitted = true := by decide +kernel
    simp only [Py.get_run, this, Option.isNone_none, Bool.and_self, if_true, Py.pure_run], by decide +kernel, by decide +kernel⟩

end Verif.RuleFlagProps
