import Verif.UnitSetLemmas

/-!
# C69 for a ruleset
-/

namespace Verif.Units

open Verif Rule Spec Vote RuleSet RuleSetProps VoteProps

/-- **C69 (`predict`, partial).** Two rulesets with the same rules, in the two units (and with weights which agree up to a positive factor):
the predictions of the second are those of the first in the other unit, missing where they are missing.
Missing: predictions which cancel, and a first rule which predicts 0, in either unit, where it is false (`C69_cancel_false`,
`C69_zero_false`). -/
theorem C69_predict_partial {R : RsEnv} {s s' : RuleSet} {xs : Option Xs} {w w' : WeightsArg} {n : Nat} {f : Rule → Rule}
    {on on' : Rule → Nat → Bool} {p p' wt wt' : Rule → Rat} {a b c : Rat} (hk : s.ruleType = some .regression)
    (hk' : s'.ruleType = some .regression) (hu : R.stackedFit = false ∨ s.stacked = none) (hu' : R.stackedFit = false ∨ s'.stacked = none)
    (hf : SameRules a b (rulesOf s) (rulesOf s') f on on' p p') (hc : 0 < c) (hwt : ∀ r ∈ rulesOf s, wt' (f r) = c * wt r)
    (h : Regressors (voteEnv R .regression) xs (rulesOf s) n on p) (h' : Regressors (voteEnv R .regression) xs (rulesOf s') n on' p')
    (hw : WeightsGiven (voteEnv R .regression) (rulesOf s) wt w) (hw' : WeightsGiven (voteEnv R .regression) (rulesOf s') wt' w')
    (hpos : ∀ r ∈ rulesOf s, 0 ≤ wt r) (hv : ∃ r ∈ rulesOf s, wt r ≠ 0)
    (hs : (voters (rulesOf s) wt).length = 1 ∨
      ((∀ i < n, activeSum (rulesOf s) on wt i ≠ 0 → activeSum (rulesOf s) on (fun r => p r * wt r) i ≠ 0) ∧
        ∀ r rest, voters (rulesOf s) wt = r :: rest → p r ≠ 0))
    (hs' : (voters (rulesOf s') wt').length = 1 ∨
      ((∀ i < n, activeSum (rulesOf s') on' wt' i ≠ 0 → activeSum (rulesOf s') on' (fun r => p' r * wt' r) i ≠ 0) ∧
        ∀ r rest, voters (rulesOf s') wt' = r :: rest → p' r ≠ 0)) :
    ∃ k : List (Option Rat), predict R xs (some w) s = (.ok (answers k), s) ∧
      predict R xs (some w') s' = (.ok (answers (k.map (convert a b))), s') := by
  have hpos' : ∀ r ∈ rulesOf s', 0 ≤ wt' r := by
    intro r hr
    rw [hf.rules] at hr
    obtain ⟨q, hq, rfl⟩ := List.mem_map.1 hr
    rw [hwt q hq]
    exact mul_nonneg hc.le (hpos q hq)
  have hv' : ∃ r ∈ rulesOf s', wt' r ≠ 0 := by
    obtain ⟨r, hr, h0⟩ := hv
    refine ⟨f r, by rw [hf.rules]; exact List.mem_map_of_mem hr, ?_⟩
    rw [hwt r hr]
    exact mul_ne_zero hc.ne' h0
  obtain ⟨l, e1, e2, e3⟩ := C21_predict_partial hk hu h hw hpos hv hs
  obtain ⟨l', e1', e2', e3'⟩ := C21_predict_partial hk' hu' h' hw' hpos' hv' hs'
  obtain ⟨k, rfl, rfl⟩ := pointwise (a := a) (b := b) e2 e2' e3 e3' fun i x x' q q' => weightedMean_convert hf hc hwt q q'
  exact ⟨k, by rw [e1, answers_eq], by rw [e1', answers_eq]⟩

/-- The rule in degrees Fahrenheit -/
def fahrenheit (r : Rule) : Rule := { r with prediction := .label (.num (.fin (9 / 5 * number r + 32))) }

/-- Two rules in degrees Celsius -/
def twoVoters : List Rule := [voter 0 [1, 1, 0] (.num (.fin 10)), voter 1 [0, 1, 0] (.num (.fin 20))]

theorem twoVoters_regressors : Regressors (voteEnv someRs .regression) none twoVoters 3 isOn number ∧
    Regressors (voteEnv someRs .regression) none (twoVoters.map fahrenheit) 3 isOn number := by
  refine ⟨⟨by decide, ?_, ?_, ?_⟩, ⟨by decide, ?_, ?_, ?_⟩⟩ <;>
  · simp only [twoVoters, List.map_cons, List.map_nil, List.forall_mem_cons, List.not_mem_nil, false_imp_iff, implies_true, and_true]
    decide +kernel

theorem twoVoters_same : SameRules (9 / 5) 32 twoVoters (twoVoters.map fahrenheit) fahrenheit isOn isOn number number := by
  refine ⟨rfl, fun r _ => rfl, ?_⟩
  simp only [twoVoters, List.forall_mem_cons, List.not_mem_nil, false_imp_iff, implies_true, and_true]
  decide +kernel

theorem twoVoters_rules : rulesOf (setWith .regression twoVoters) = twoVoters ∧
    rulesOf (setWith .regression (twoVoters.map fahrenheit)) = twoVoters.map fahrenheit := ⟨rfl, rfl⟩

theorem each {l : List Rule} {P : Rule → Prop} [DecidablePred P] (h : (l.all fun r => decide (P r)) = true) : ∀ r ∈ l, P r := by
  simpa using h

theorem weights_of {w : Weights} {l : List Rule} (h : (l.all fun r => decide (w ((voteEnv someRs .regression).condStr r.cond) =
    some (.fin (weightIn (voteEnv someRs .regression) w r)))) = true) :
    WeightsAre (voteEnv someRs .regression) w l (weightIn (voteEnv someRs .regression) w) := fun r hr => Or.inl (each h r hr)

/-- The hypotheses of `C69_predict_partial`, with the weights 1 and 3: the ruleset predicts 10, 17.5 and nothing. -/
example : ∃ k : List (Option Rat),
    predict someRs none (some (.series (someWeights 1 3 0))) (setWith .regression twoVoters) =
      (.ok (answers k), setWith .regression twoVoters) ∧
    predict someRs none (some (.series (someWeights 1 3 0))) (setWith .regression (twoVoters.map fahrenheit)) =
      (.ok (answers (k.map (convert (9 / 5) 32))), setWith .regression (twoVoters.map fahrenheit)) := by
  let wt : Rule → Rat := weightIn (voteEnv someRs .regression) (someWeights 1 3 0)
  refine C69_predict_partial (n := 3) (f := fahrenheit) (on := isOn) (on' := isOn) (p := number) (p' := number)
    (wt := wt) (wt' := wt) (c := 1) rfl rfl (Or.inl rfl) (Or.inl rfl) twoVoters_same one_pos
    (fun r _ => (one_mul _).symm) twoVoters_regressors.1 twoVoters_regressors.2 ?_ ?_ ?_ ?_ (Or.inr ⟨?_, ?_⟩) (Or.inr ⟨?_, ?_⟩)
  · exact weights_of (by decide +kernel)
  · exact weights_of (by decide +kernel)
  · exact each (by decide +kernel)
  · exact ⟨_, List.mem_cons_self .., by decide +kernel⟩
  · decide +kernel
  · exact fun r rest e => each (P := fun r => number r ≠ 0) (l := voters twoVoters wt) (by decide +kernel) r (e ▸ List.mem_cons_self ..)
  · decide +kernel
  · exact fun r rest e => each (P := fun r => number r ≠ 0) (l := voters (twoVoters.map fahrenheit) wt) (by decide +kernel) r
      (e ▸ List.mem_cons_self ..)

/-- What they predict -/
example : (predict someRs none (some (.series (someWeights 1 3 0))) (setWith .regression twoVoters)).1 = .ok (answers [some 10, some (35 / 2), none]) ∧
    (predict someRs none (some (.series (someWeights 1 3 0))) (setWith .regression (twoVoters.map fahrenheit))).1 =
      .ok (answers [some 50, some (127 / 2), none]) := by
  decide +kernel

/-- **C69 (`predict` with stacked activations).** The same without exceptions. -/
theorem C69_predict_stacked {R : RsEnv} {s s' : RuleSet} {xs : Option Xs} {w w' : WeightsArg} {n : Nat} {f : Rule → Rule}
    {on on' : Rule → Nat → Bool} {p p' wt wt' : Rule → Rat} {a b c : Rat} {cs cs' : Columns Nat} (hk : s.ruleType = some .regression)
    (hk' : s'.ruleType = some .regression) (hkind : ∀ m ∈ s.rules, m.kind = .regression) (hkind' : ∀ m ∈ s'.rules, m.kind = .regression)
    (hu : R.stackedFit = true) (hcs : s.stacked = some cs) (hcs' : s'.stacked = some cs')
    (hx : xs = none → cs = stackOf (voteEnv R .regression) (rulesOf s) n on)
    (hx' : xs = none → cs' = stackOf (voteEnv R .regression) (rulesOf s') n on')
    (hf : SameRules a b (rulesOf s) (rulesOf s') f on on' p p') (hc : 0 < c) (hwt : ∀ r ∈ rulesOf s, wt' (f r) = c * wt r)
    (h : Regressors (voteEnv R .regression) xs (rulesOf s) n on p) (h' : Regressors (voteEnv R .regression) xs (rulesOf s') n on' p')
    (hw : WeightsGiven (voteEnv R .regression) (rulesOf s) wt w) (hw' : WeightsGiven (voteEnv R .regression) (rulesOf s') wt' w')
    (hpos : ∀ r ∈ rulesOf s, 0 ≤ wt r) (hd : DifferentNames (voteEnv R .regression) (rulesOf s))
    (hd' : DifferentNames (voteEnv R .regression) (rulesOf s')) (hv : ∃ r ∈ rulesOf s, wt r ≠ 0 ∧ ∃ i < n, on r i = true) :
    ∃ k : List (Option Rat), predict R xs (some w) s = (.ok (answers k), s) ∧
      predict R xs (some w') s' = (.ok (answers (k.map (convert a b))), s') := by
  have hpos' : ∀ r ∈ rulesOf s', 0 ≤ wt' r := by
    intro r hr
    rw [hf.rules] at hr
    obtain ⟨q, hq, rfl⟩ := List.mem_map.1 hr
    rw [hwt q hq]
    exact mul_nonneg hc.le (hpos q hq)
  have hv' : ∃ r ∈ rulesOf s', wt' r ≠ 0 ∧ ∃ i < n, on' r i = true := by
    obtain ⟨r, hr, h0, i, hi, ho⟩ := hv
    refine ⟨f r, by rw [hf.rules]; exact List.mem_map_of_mem hr, ?_, i, hi, ?_⟩
    · rw [hwt r hr]
      exact mul_ne_zero hc.ne' h0
    · rw [hf.on r hr]
      exact ho
  obtain ⟨l, e1, e2, e3⟩ := C21_predict_stacked_partial hk hkind hu hcs hx h hw hpos hd hv
  obtain ⟨l', e1', e2', e3'⟩ := C21_predict_stacked_partial hk' hkind' hu hcs' hx' h' hw' hpos' hd' hv'
  obtain ⟨k, rfl, rfl⟩ := pointwise (a := a) (b := b) e2 e2' e3 e3' fun i x x' q q' => weightedMean_convert hf hc hwt q q'
  exact ⟨k, by rw [e1, answers_eq], by rw [e1', answers_eq]⟩

/-- The same rules with stacked activations -/
def stackedTwo (rules : List Rule) : RuleSet :=
  { setWith .regression rules with stacked := some (stackOf (voteEnv someRs .regression) rules 3 isOn) }

/-- The hypotheses of `C69_predict_stacked` -/
example : ∃ k : List (Option Rat),
    predict { someRs with stackedFit := true } none (some (.series (someWeights 1 3 0))) (stackedTwo twoVoters) =
      (.ok (answers k), stackedTwo twoVoters) ∧
    predict { someRs with stackedFit := true } none (some (.series (someWeights 1 3 0))) (stackedTwo (twoVoters.map fahrenheit)) =
      (.ok (answers (k.map (convert (9 / 5) 32))), stackedTwo (twoVoters.map fahrenheit)) := by
  let wt : Rule → Rat := weightIn (voteEnv someRs .regression) (someWeights 1 3 0)
  refine C69_predict_stacked (n := 3) (f := fahrenheit) (on := isOn) (on' := isOn) (p := number) (p' := number)
    (wt := wt) (wt' := wt) (c := 1) rfl rfl (by simp [stackedTwo, setWith]) (by simp [stackedTwo, setWith]) rfl rfl rfl (fun _ => rfl) (fun _ => rfl)
    twoVoters_same one_pos (fun r _ => (one_mul _).symm) twoVoters_regressors.1 twoVoters_regressors.2 (weights_of (by decide +kernel))
    (weights_of (by decide +kernel)) (each (by decide +kernel)) ?_ ?_ ⟨_, List.mem_cons_self .., by decide +kernel, 0, by decide, by decide +kernel⟩
  · show List.Nodup _
    decide +kernel
  · show List.Nodup _
    decide +kernel

/-- **C69 (`predict` without weights, with stacked activations).** -/
theorem C69_mean_stacked {R : RsEnv} {s s' : RuleSet} {xs : Option Xs} {n : Nat} {f : Rule → Rule}
    {on on' : Rule → Nat → Bool} {p p' : Rule → Rat} {a b : Rat} {cs cs' : Columns Nat} (hk : s.ruleType = some .regression)
    (hk' : s'.ruleType = some .regression) (hkind : ∀ m ∈ s.rules, m.kind = .regression) (hkind' : ∀ m ∈ s'.rules, m.kind = .regression)
    (hu : R.stackedFit = true) (hcs : s.stacked = some cs) (hcs' : s'.stacked = some cs')
    (hx : xs = none → cs = stackOf (voteEnv R .regression) (rulesOf s) n on)
    (hx' : xs = none → cs' = stackOf (voteEnv R .regression) (rulesOf s') n on') (hne : s.rules ≠ [])
    (hf : SameRules a b (rulesOf s) (rulesOf s') f on on' p p')
    (h : Regressors (voteEnv R .regression) xs (rulesOf s) n on p) (h' : Regressors (voteEnv R .regression) xs (rulesOf s') n on' p')
    (hd : DifferentNames (voteEnv R .regression) (rulesOf s)) (hd' : DifferentNames (voteEnv R .regression) (rulesOf s')) :
    ∃ k : List (Option Rat), predict R xs none s = (.ok (answers k), s) ∧
      predict R xs none s' = (.ok (answers (k.map (convert a b))), s') := by
  have hne' : s'.rules ≠ [] := by
    intro e
    have := congrArg List.length hf.rules
    simp [rulesOf, e] at this
    exact hne (List.length_eq_zero_iff.1 this.symm)
  obtain ⟨l, e1, e2, e3⟩ := C22_predict_stacked_partial hk hkind hu hcs hx hne h hd
  obtain ⟨l', e1', e2', e3'⟩ := C22_predict_stacked_partial hk' hkind' hu hcs' hx' hne' h' hd'
  obtain ⟨k, rfl, rfl⟩ := pointwise (a := a) (b := b) e2 e2' e3 e3' fun i x x' q q' => mean_convert hf q q'
  exact ⟨k, by rw [e1, answers_eq], by rw [e1', answers_eq]⟩

/-- The hypotheses of `C69_mean_stacked` -/
example : ∃ k : List (Option Rat),
    predict { someRs with stackedFit := true } none none (stackedTwo twoVoters) = (.ok (answers k), stackedTwo twoVoters) ∧
    predict { someRs with stackedFit := true } none none (stackedTwo (twoVoters.map fahrenheit)) =
      (.ok (answers (k.map (convert (9 / 5) 32))), stackedTwo (twoVoters.map fahrenheit)) := by
  refine C69_mean_stacked (n := 3) (f := fahrenheit) (on := isOn) (on' := isOn) (p := number) (p' := number)
    rfl rfl (by simp [stackedTwo, setWith]) (by simp [stackedTwo, setWith]) rfl rfl rfl (fun _ => rfl) (fun _ => rfl)
    (List.cons_ne_nil _ _) twoVoters_same twoVoters_regressors.1 twoVoters_regressors.2 ?_ ?_
  · show List.Nodup _
    decide +kernel
  · show List.Nodup _
    decide +kernel

/-- What is predicted then -/
example : (predict { someRs with stackedFit := true } none none (stackedTwo (twoVoters.map fahrenheit))).1 =
    .ok (answers [some 50, some 59, none]) := by
  decide +kernel

/-- **C69, violation.** Two rules predict 1 and 3 at a point, so the ruleset predicts 2.  With the targets moved by -2 they predict -1 and 1, and
the prediction is missing instead of 0; with weights and without. -/
theorem C69_cancel_false :
    let s := fun a b => setWith .regression [voter 0 [1] (.num (.fin a)), voter 1 [1] (.num (.fin b))]
    let w : WeightsArg := .series (someWeights 1 1 0)
    (predict someRs none (some w) (s 1 3)).1 = .ok (answers [some 2]) ∧ (predict someRs none (some w) (s (-1) 1)).1 = .ok (answers [none]) ∧
      (predict someRs none none (s 1 3)).1 = .ok (answers [some 2]) ∧ (predict someRs none none (s (-1) 1)).1 = .ok (answers [none]) := by
  decide +kernel

/-- **C69, violation.** With the targets moved by -1 the first rule predicts 0, and `predict` raises `TypeError`. -/
theorem C69_zero_false :
    let s := fun a b => setWith .regression [voter 0 [1] (.num (.fin a)), voter 1 [1] (.num (.fin b))]
    let w : WeightsArg := .series (someWeights 1 1 0)
    (predict someRs none (some w) (s 1 3)).1 = .ok (answers [some 2]) ∧ (predict someRs none (some w) (s 0 2)).1 = .error .typeError := by
  decide +kernel

end Verif.Units
