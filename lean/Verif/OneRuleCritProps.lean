import Verif.OneRuleStackProps
import Verif.CriterionLemmas
import Verif.RuleFit

/-!
# C91: the criterion of a ruleset of one rule
-/

namespace Verif.OneRuleProps

open Verif Vote Spec RuleSet RuleSetProps OneRule

variable {R : RsEnv}

/-- **C91 (criterion).** The criterion computed for a ruleset of one regression rule, whose predictions are those of the rule, is the one computed for
the rule with its activation. -/
theorem C91_criterion {y : List Label} {xs : Option Xs} {kw : Rule.Kw} {s : RuleSet} {m : Member} {v : List Nat} {r' : Rule} (h : HasOne s m)
    (hk : m.kind = .regression) (hs : R.stackedFit = false ∨ s.stacked = none) (hx : OnPoints xs m.rule) (hl : m.rule.length ≠ 0)
    (ht : NoText (R.ofKind .regression) m.rule) (hv : activationOf (R.ofKind .regression) xs m.rule = .ok (some v))
    (hr : Rule.calcCriterion (R.ofKind .regression) y v kw m.rule = (.ok (), r')) :
    (RuleSet.calcCriterion R y xs none kw s).1 = .ok () ∧ (RuleSet.calcCriterion R y xs none kw s).2.criterion = r'.criterion := by
  have hpred := C91_regression h hk hs hx hl ht
  rcases activation_cases (E := R.ofKind .regression) hx with ⟨e, _, h1, _⟩ | ⟨h1, _⟩ | ⟨v', h1, h2, h3, h4, h5⟩
  · rw [h1] at hv
    cases hv
  · rw [h1] at hv
    cases hv
  rw [h1] at hv
  cases hv
  -- the predictions of the rule as numbers
  obtain ⟨p, hp1, hp2⟩ : ∃ p : List Num, Rule.predict (R.ofKind .regression) m.rule xs = .ok (p.map .num) ∧ p ≠ [] ∧
      (m.rule.calcPredictionVector (R.ofKind .regression) (some v) = .ok (some (p.map .num))) := by
    rw [predict_on h4 h5]
    unfold Rule.calcCriterion at hr
    rw [Py.bind_ok (Py.get_run _)] at hr
    have hK : (R.ofKind .regression).kind = .regression := rfl
    simp only [hK] at hr
    cases hp : m.rule.getPrediction (R.ofKind .regression) with
    | error e =>
      have : m.rule.calcPredictionVector (R.ofKind .regression) (some v) = .error e := by
        simp [Rule.calcPredictionVector, hp, bind, Except.bind]
      rw [this, Py.bind_err (Py.ofExcept_run _ _)] at hr
      cases hr
    | ok o =>
      match o with
      | none => exact ⟨v.map fun _ => .nan, by simp, by simpa using h2, by simp [Rule.calcPredictionVector, hp, bind, Except.bind]⟩
      | some (.text t) => exact absurd hp (ht t)
      | some (.num x) =>
        refine ⟨v.map fun a : Nat => if a = 1 then x else .nan, by simp, by simpa using h2, ?_⟩
        simp only [Rule.calcPredictionVector, hp, bind, Except.bind, if_neg hl, List.map_map]
        congr 2
        refine List.map_congr_left fun a ha => ?_
        have := h3 a ha
        rcases (by omega : a = 0 ∨ a = 1) with rfl | rfl
        · simp
        · cases x <;> simp [Num.mul, Num.infSign]
  obtain ⟨hp2, hp3⟩ := hp2
  unfold Rule.calcCriterion at hr
  rw [Py.bind_ok (Py.get_run _)] at hr
  have hK : (R.ofKind .regression).kind = .regression := rfl
  simp only [hK] at hr
  rw [hp3, Py.bind_ok (Py.ofExcept_run _ _)] at hr
  simp only [Option.getD_some] at hr
  rw [Vote.numbers_map_num, Py.bind_ok (Py.ofExcept_run _ _)] at hr
  obtain ⟨ys, r1, hy, hr⟩ := Py.bind_eq_ok hr
  obtain ⟨hy1, rfl⟩ := Rule.ofExcept_ok hy
  obtain ⟨c, r2, hcr, hr⟩ := Py.bind_eq_ok hr
  obtain ⟨hcr1, rfl⟩ := Rule.ofExcept_ok hcr
  rw [Py.bind_ok (Py.modify_run _ _)] at hr
  have hdata := Rule.check_data (R.ofKind .regression) "criterion" { m.rule with criterion := .num c }
  rw [hr] at hdata
  have hcrit : r'.criterion = .num c := congrArg (fun d => d.criterion) hdata
  rw [hp1] at hpred
  -- the ruleset
  cases hq : RuleSet.predict R xs none s with
  | mk a s1 =>
    rw [hq] at hpred
    cases hpred
    unfold RuleSet.calcCriterion
    rw [Py.bind_ok (Py.get_run s), if_neg (by simp [h.rules])]
    simp only [h.type, hk]
    have : (RuleSet.predict R xs none) s = (.ok ((p.map Label.num).map Cell.label), s1) := hq
    rw [Py.bind_ok this, if_neg (by simpa using hp2), labelsOfCells_label, Py.bind_ok (Py.ofExcept_run _ _), Vote.numbers_map_num,
      Py.bind_ok (Py.ofExcept_run _ _), hy1, Py.bind_ok (Py.ofExcept_run _ _), hcr1, Py.bind_ok (Py.ofExcept_run _ _), Py.modify_run]
    exact ⟨rfl, hcrit.symm⟩

example : (Rule.calcCriterion (someRs.ofKind .regression) [.num (.fin 1), .num (.fin 2), .num (.fin 4)] [1, 1, 0] { criterionMethod := some "mse" }
      (VoteProps.voter 0 [1, 1, 0] (.num (.fin 2)))).1 = .ok () ∧
    activationOf (someRs.ofKind .regression) none (VoteProps.voter 0 [1, 1, 0] (.num (.fin 2))) = .ok (some [1, 1, 0]) ∧
    (RuleSet.calcCriterion someRs [.num (.fin 1), .num (.fin 2), .num (.fin 4)] none none { criterionMethod := some "mse" }
      (alone .regression (.num (.fin 2)))).2.criterion = .num (.fin (1 / 2)) :=
  ⟨by decide +kernel, by decide +kernel, by decide +kernel⟩

end Verif.OneRuleProps
