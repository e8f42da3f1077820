import Verif.OneRuleProps

/-!
# C91: stacked predictions of one rule
-/

namespace Verif.OneRuleProps

open Verif Vote Spec RuleSet RuleSetProps OneRule

variable {R : RsEnv}

theorem mul_fin_one (x : Num) : Num.mul (.fin 1) x = x := by
  cases x <;> simp [Num.mul, Num.infSign]

theorem nanmean_one (x : Num) : Num.nanmean [x] = x := by
  cases x <;> simp [Num.nanmean, Num.dropna, Num.isNaN, Num.mean, Num.sum, Num.add, Num.div, Num.infSign]

theorem rowsOf_one {α} (n : String) (v : List α) : rowsOf v.length [(n, v)] = v.map fun a => [a] := by
  unfold rowsOf
  apply List.ext_getElem
  · simp
  · intro i h1 h2
    simp at h1
    simp [h1]

/-- The stacked mean of one column -/
theorem stacked_one {r : Rule} {v : List Nat} (hv : v ≠ []) (hb : ∀ a ∈ v, a ≤ 1) (ht : NoText (R.ofKind .regression) r) :
    Vote.predictStacked (voteEnv R .regression) [r] [(R.condStr r.cond, v)] none = (match r.getPrediction (R.ofKind .regression) with
      | .error e => .error e
      | .ok none => .ok (v.map fun _ => .label (.num .nan))
      | .ok (some (.text _)) => .error .typeError
      | .ok (some (.num x)) => .ok (v.map fun a : Nat => .label (.num (if a = 1 then x else .nan)))) := by
  have hE : (voteEnv R .regression).env = R.ofKind .regression := rfl
  have hC : (voteEnv R .regression).condStr = R.condStr := rfl
  have hK : (R.ofKind .regression).kind = .regression := rfl
  have hcells : ∀ x : Num, cellsOf (equalRegressorStacked v.length [(R.condStr r.cond, v.map (cellNum x))]) =
      v.map fun a : Nat => .label (.num (if a = 1 then x else .nan)) := by
    intro x
    have := rowsOf_one (R.condStr r.cond) (v.map (cellNum x))
    rw [List.length_map] at this
    unfold equalRegressorStacked cellsOf
    rw [this, List.map_map, List.map_map, List.map_map]
    refine List.map_congr_left fun a ha => ?_
    have := hb a ha
    rcases (by omega : a = 0 ∨ a = 1) with rfl | rfl
    · simp [cellNum, nanmean_one]
    · simp [cellNum, nanmean_one, mul_fin_one]
  have hv' : ¬ v.length = 0 := by simpa using hv
  unfold Vote.predictStacked labelsOf
  rw [hE, hC]
  cases hp : r.getPrediction (R.ofKind .regression) with
  | error e => simp [hp, Except.map, bind, Except.bind]
  | ok o =>
    match o with
    | none =>
      have := hcells .nan
      simp only [ite_self] at this
      simp [hp, Except.map, bind, Except.bind, pure, Except.pure, dictOf, height, hv, hK, onlyNumbers, predictionVectors, lookup, this]
    | some (.text t) => exact absurd hp (ht t)
    | some (.num x) =>
      simp [hp, Except.map, bind, Except.bind, pure, Except.pure, dictOf, height, hv, hK, onlyNumbers, predictionVectors, lookup, hcells x]

/-- **C91 (stacked means).** When predictions are stacked, a ruleset of one regression rule predicts, for features or with the column which holds the
activation of the rule, what the rule predicts, and raises what the rule raises; the rule may have no features. -/
theorem C91_stacked {xs : Option Xs} {s : RuleSet} {m : Member} {c : Columns Nat} (h : HasOne s m) (hk : m.kind = .regression)
    (hf : R.stackedFit = true) (hs : s.stacked = some c) (hx : OnPoints xs m.rule) (ht : NoText (R.ofKind .regression) m.rule)
    (hc : xs = none → ∃ v, v ≠ [] ∧ m.rule.activation = some v ∧ c = [(R.condStr m.rule.cond, v)]) :
    (RuleSet.predict R xs none s).1 = (Rule.predict (R.ofKind .regression) m.rule xs).map fun l => l.map Cell.label := by
  unfold RuleSet.predict
  rw [Py.bind_ok (Py.get_run s), if_neg (by simp [h.rules])]
  simp only [h.type, hf, hs, hk]
  rcases activation_cases (E := R.ofKind .regression) hx with ⟨e, hne, h1, h2⟩ | ⟨h1, h2⟩ | ⟨v, h1, h2, h3, h4, h5⟩
  · obtain ⟨x, rfl⟩ : ∃ x, xs = some x := by
      cases xs with
      | none => exact absurd rfl hne
      | some x => exact ⟨x, rfl⟩
    have he : m.rule.evaluateActivation (R.ofKind .regression) x = .error e := by
      simp only [activationOf] at h1
      cases hq : m.rule.evaluateActivation (R.ofKind .regression) x with
      | error e' =>
        rw [hq] at h1
        simpa [Except.map, bind, Except.bind] using h1
      | ok v =>
        rw [hq] at h1
        simp [Except.map, bind, Except.bind] at h1
    have : stackFor R (some x) s c = .error e := by
      simp [stackFor, evaluateStacked, h.rules, activations, hk, he, bind, Except.bind, Except.map]
    rw [this, Py.bind_err (Py.ofExcept_run _ _), h2]
    rfl
  · exfalso
    cases xs with
    | none =>
      obtain ⟨v, _, hv, _⟩ := hc rfl
      simp [activationOf, hv] at h1
    | some x =>
      simp only [activationOf] at h1
      cases hq : m.rule.evaluateActivation (R.ofKind .regression) x <;> rw [hq] at h1 <;> simp [Except.map, bind, Except.bind] at h1
  · have : stackFor R xs s c = .ok [(R.condStr m.rule.cond, v)] := by
      cases xs with
      | none =>
        obtain ⟨v', _, hv, rfl⟩ := hc rfl
        rw [h5 rfl] at hv
        cases hv
        rfl
      | some x =>
        simp [stackFor, evaluateStacked, h.rules, activations, hk, h4 x rfl, bind, Except.bind, Except.map, pure, Except.pure, namedColumns, frameOf,
          dictOf]
    rw [this, Py.bind_ok (Py.ofExcept_run _ _)]
    have hw : weightsOf R .regression s.rules none = .ok none := rfl
    rw [hw, Py.bind_ok (Py.ofExcept_run _ _), Py.ofExcept_run, predict_on h4 h5, h.rules]
    simp only [List.map_cons, List.map_nil]
    rw [stacked_one h2 h3 ht]
    cases hp : m.rule.getPrediction (R.ofKind .regression) with
    | error e => rfl
    | ok o =>
      match o with
      | none => simp [Except.map]
      | some (.text t) => exact absurd hp (ht t)
      | some (.num x) => simp [Except.map, Function.comp_def]

/-- The column of the rule is there. -/
def stackedAlone : RuleSet :=
  { alone .regression (.num (.fin 2)) with stacked := some [("a", [1, 1, 0])] }

example : HasOne stackedAlone ⟨.regression, VoteProps.voter 0 [1, 1, 0] (.num (.fin 2))⟩ ∧ someRs.condStr (VoteProps.voter 0 [1, 1, 0] (.num (.fin 2))).cond = "a" ∧
    (RuleSet.predict { someRs with stackedFit := true } none none stackedAlone).1 =
      .ok [.label (.num (.fin 2)), .label (.num (.fin 2)), .label (.num .nan)] :=
  ⟨⟨rfl, rfl⟩, by decide +kernel, by decide +kernel⟩

end Verif.OneRuleProps
