import Verif.RuleFit

/-!
# What `eval` computes
-/

namespace Verif.Rule

open Verif Thresholds

theorem getPrediction_data {E : Env} {r r' : Rule} (h : r'.prediction = r.prediction) : r'.getPrediction E = r.getPrediction E := by
  simp only [getPrediction, h]

theorem calcPredictionVector_data {E : Env} {r r' : Rule} {v : List Nat} (h : r'.prediction = r.prediction) (hc : r'.cond = r.cond) :
    r'.calcPredictionVector E (some v) = r.calcPredictionVector E (some v) := by
  simp only [calcPredictionVector, getPrediction_data h, Rule.length, hc]
  rfl

theorem evalActivation_ok {E : Env} {xs : Option Xs} {rc : Bool} {r r' : Rule} {v : List Nat}
    (hx : ∀ x, xs = some x → x.length ≠ 0) (h : evalActivation E xs rc r = (.ok v, r')) :
    Uses E r xs v ∧ r'.prediction = r.prediction ∧ r'.cond = r.cond := by
  unfold evalActivation at h
  obtain ⟨_, r1, h1, h⟩ := Py.bind_eq_ok h
  rw [Py.bind_run] at h
  simp only [Py.get_run] at h
  have key : r1.prediction = r.prediction ∧ r1.cond = r.cond ∧
      (∀ x, xs = some x → rc = true → ∃ w, r.evaluateActivation E x = .ok w ∧ r1.act = some w) ∧
      ((xs = none ∨ rc = false) → r1.act = r.act) := by
    unfold recomputeIf at h1
    cases rc with
    | false => simp at h1; subst h1; exact ⟨rfl, rfl, by simp, fun _ => rfl⟩
    | true =>
      rw [if_pos rfl] at h1
      cases xs with
      | some x =>
        obtain ⟨w, hw, hd⟩ := calcActivation_ok h1 (hx x rfl)
        have q1 := congrArg Rule.prediction hd
        have q2 := congrArg Rule.cond hd
        refine ⟨q1, q2, ?_, by simp⟩
        intro x' hx' _
        cases hx'
        exact ⟨w, hw, congrArg Rule.act hd⟩
      | none =>
        unfold calcActivation at h1
        simp only at h1
        rw [Py.bind_run] at h1
        simp only [Py.get_run] at h1
        split at h1
        · simp at h1
        · simp at h1; subst h1; exact ⟨rfl, rfl, by simp, fun _ => rfl⟩
  obtain ⟨k1, k2, k3, k4⟩ := key
  cases ho : r1.act with
  | none => simp [ho] at h
  | some own =>
    simp only [ho] at h
    cases xs with
    | none =>
      simp at h
      obtain ⟨rfl, rfl⟩ := h
      exact ⟨by show r.act = some _; rw [← k4 (.inl rfl), ho], k1, k2⟩
    | some x =>
      cases rc with
      | true =>
        simp at h
        obtain ⟨rfl, rfl⟩ := h
        obtain ⟨w, hw, hw'⟩ := k3 x rfl rfl
        rw [ho] at hw'
        cases hw'
        exact ⟨hw, k1, k2⟩
      | false =>
        simp only [Bool.false_eq_true, if_false] at h
        obtain ⟨e, rfl⟩ := ofExcept_ok h
        refine ⟨?_, k1, k2⟩
        simp only [evaluateActivation, k2] at e
        exact e

/-- The criterion which `eval` computes. -/
theorem eval_regression {E : Env} {y : List Label} {xs : Option Xs} {rc force : Bool} {kw : Kw} {r r' : Rule}
    (hk : E.kind = .regression) (hx : ∀ x, xs = some x → x.length ≠ 0) (h : eval E y xs rc force kw r = (.ok (), r'))
    (hg : r'.good = true ∨ force = true) :
    ∃ v p ps ys c, Uses E r xs v ∧ r.calcPredictionVector E (some v) = .ok p ∧ numbers (p.getD []) = .ok ps ∧
      numbers y = .ok ys ∧ RFun.regressionCriterion (kw.criterionMethod.getD "mse_norm") ps ys = .ok c ∧
      r'.criterion = .num c := by
  have hg0 : r.good = true ∨ force = true := hg.imp_left fun g => (keeps_eval E y xs rc force kw).good h g
  obtain ⟨v, r1, r2, r3, h1, h2, h3, rfl⟩ := eval_steps hx hg0 h
  have hg3 : r2.good = true ∨ force = true := hg.imp_left fun g => (keeps_checkAllIfGood E).good h3 (by simpa using g)
  obtain ⟨hu, hp, hc⟩ := evalActivation_ok hx h1
  rw [hk] at h2
  simp only [testAttrs] at h2
  obtain ⟨a1, b1, ha1, e1, h2⟩ := attrLoop_cons (keeps_calcTest E y v kw) h2 hg3
  cases h2
  simp only [calcTest, if_true, calcCriterion] at ha1
  rw [Py.bind_run] at ha1
  simp only [Py.get_run, hk] at ha1
  obtain ⟨p, s1, g1, ha1⟩ := Py.bind_eq_ok ha1
  obtain ⟨f1, rfl⟩ := ofExcept_ok g1
  obtain ⟨ps, s2, g2, ha1⟩ := Py.bind_eq_ok ha1
  obtain ⟨f2, rfl⟩ := ofExcept_ok g2
  obtain ⟨ys, s3, g3, ha1⟩ := Py.bind_eq_ok ha1
  obtain ⟨f3, rfl⟩ := ofExcept_ok g3
  obtain ⟨c, s4, g4, ha1⟩ := Py.bind_eq_ok ha1
  obtain ⟨f4, rfl⟩ := ofExcept_ok g4
  obtain ⟨_, s5, g5, ha1⟩ := Py.bind_eq_ok ha1
  obtain rfl := modify_ok g5
  have hd := check_data E "criterion" { r1 with criterion := .num c }
  rw [ha1] at hd
  have hd3 := checkAllIfGood_data E r2
  rw [h3, e1, hd] at hd3
  rw [calcPredictionVector_data hp hc] at f1
  exact ⟨v, p, ps, ys, c, hu, f1, f2, f3, f4, (congrArg Rule.criterion hd3 : _)⟩

theorem eval_classification {E : Env} {y : List Label} {xs : Option Xs} {rc force : Bool} {kw : Kw} {r r' : Rule}
    (hk : E.kind = .classification) (hx : ∀ x, xs = some x → x.length ≠ 0) (h : eval E y xs rc force kw r = (.ok (), r'))
    (hg : r'.good = true ∨ force = true) :
    ∃ v p c, Uses E r xs v ∧ r.getPrediction E = .ok (some p) ∧
      RFun.classificationCriterion (kw.criterionMethod.getD "success_rate") v p y = .ok c ∧ r'.criterion = .num c := by
  have hg0 : r.good = true ∨ force = true := hg.imp_left fun g => (keeps_eval E y xs rc force kw).good h g
  obtain ⟨v, r1, r2, r3, h1, h2, h3, rfl⟩ := eval_steps hx hg0 h
  have hg3 : r2.good = true ∨ force = true := hg.imp_left fun g => (keeps_checkAllIfGood E).good h3 (by simpa using g)
  obtain ⟨hu, hp, hc⟩ := evalActivation_ok hx h1
  rw [hk] at h2
  simp only [testAttrs] at h2
  obtain ⟨a1, b1, ha1, e1, h2⟩ := attrLoop_cons (keeps_calcTest E y v kw) h2 hg3
  cases h2
  simp only [calcTest, if_true, calcCriterion] at ha1
  rw [Py.bind_run] at ha1
  simp only [Py.get_run, hk] at ha1
  obtain ⟨p, s1, g1, ha1⟩ := Py.bind_eq_ok ha1
  obtain ⟨f1, rfl⟩ := ofExcept_ok g1
  rw [getPrediction_data hp] at f1
  cases p with
  | none => simp at ha1
  | some p =>
    simp only at ha1
    obtain ⟨c, s4, g4, ha1⟩ := Py.bind_eq_ok ha1
    obtain ⟨f4, rfl⟩ := ofExcept_ok g4
    obtain ⟨_, s5, g5, ha1⟩ := Py.bind_eq_ok ha1
    obtain rfl := modify_ok g5
    have hd := check_data E "criterion" { r1 with criterion := .num c }
    rw [ha1] at hd
    have hd3 := checkAllIfGood_data E r2
    rw [h3, e1, hd] at hd3
    exact ⟨v, p, c, hu, f1, f4, (congrArg Rule.criterion hd3 : _)⟩

end Verif.Rule
