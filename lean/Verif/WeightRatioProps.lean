import Verif.EqualWeightLemmas
import Verif.ZeroWeightLemmas
import Verif.ActiveProps
import Verif.StackedFitProps

/-!
# Properties: weights count by their ratios (C85)

A user who normalises weights, leaves out the rules of weight 0 or gives every rule the same weight relies on what follows.
-/

namespace Verif.WeightRatioProps

open Verif Spec Vote WeightRatio RuleSetProps VoteProps ActiveProps
open _root_.Verif.RuleSet (voteEnv)

variable {R : RsEnv} {s s' : RuleSet} {xs : Option Xs} {w w' : Weights} {k : Kind} {a : Rat}

/-! ## A factor -/

/-- **C85 (a factor, predict).** Multiplying every weight by the same positive number changes nothing: the same predictions or the same
exception, and the same ruleset afterwards, with or without features, stacked activations, missing weights and negative ones. -/
theorem C85_scale (ha : 0 < a) (h : TimesWeights a w w') :
    RuleSet.predict R xs (some (.series w')) s = RuleSet.predict R xs (some (.series w)) s :=
  congrFun (predict_A ha h R xs) s

/-- **C85 (a factor, calc_criterion).** Nor does it change the criterion of the ruleset. -/
theorem C85_scale_criterion (ha : 0 < a) (h : TimesWeights a w w') (y : List Label) (kw : Rule.Kw) :
    RuleSet.calcCriterion R y xs (some (.series w')) kw s = RuleSet.calcCriterion R y xs (some (.series w)) kw s := by
  unfold RuleSet.calcCriterion
  rw [predict_A ha h]

/-- **C85 (a factor, eval).** Nor does it change what `eval` returns, or the ruleset which it leaves. -/
theorem C85_scale_eval (ha : 0 < a) (h : TimesWeights a w w') (y : List Label) (keep force : Bool) (kw : Rule.Kw) :
    RuleSet.eval R y xs keep (some (.series w')) force kw s = RuleSet.eval R y xs keep (some (.series w)) force kw s := by
  unfold RuleSet.eval RuleSet.calcCriterion
  simp only [predict_A ha h]

theorem someWeights_times (a b c d : Rat) : TimesWeights a (someWeights b c d) (someWeights (a * b) (a * c) (a * d)) := by
  intro n
  unfold someWeights
  split
  · rfl
  · split
    · rfl
    · split <;> rfl

/-- Means and votes, stacked or not, with weights 1, 3, 0 and with a half of them -/
example : (∀ R xs s, RuleSet.predict R xs (some (.series (someWeights (1 / 2 * 1) (1 / 2 * 3) (1 / 2 * 0)))) s =
      RuleSet.predict R xs (some (.series (someWeights 1 3 0))) s) ∧
    (RuleSet.predict cleanRs none (some (.series (someWeights 1 3 0))) (setWith .regression [two, five, seven])).1 =
      .ok [.label (.num (.fin 2)), .label (.num (.fin (17 / 4))), .label (.num .nan)] ∧
    (RuleSet.predict (withStackedFit cleanRs true) none (some (.series (someWeights 1 3 0)))
      { setWith .regression [two, five, seven] with stacked := some [("a", [1, 1, 0]), ("b", [0, 1, 0]), ("c", [0, 0, 1])] }).1 =
      .ok [.label (.num (.fin 2)), .label (.num (.fin (17 / 4))), .label (.num .nan)] ∧
    (RuleSet.predict cleanRs none (some (.series (someWeights 1 3 0))) (setWith .classification [two, five, seven])).1 =
      .ok [.label (.num (.fin 2)), .label (.num (.fin 5)), .label (.num .nan)] :=
  ⟨fun _ _ _ => C85_scale (by norm_num) (someWeights_times _ _ _ _), by decide +kernel⟩

example : ∀ R y xs kw s, RuleSet.calcCriterion R y xs (some (.series (someWeights (7 * 1) (7 * 3) (7 * 2)))) kw s =
    RuleSet.calcCriterion R y xs (some (.series (someWeights 1 3 2))) kw s :=
  fun _ y _ kw _ => C85_scale_criterion (by norm_num) (someWeights_times _ _ _ _) y kw

example : ∀ R y xs keep force kw s, RuleSet.eval R y xs keep (some (.series (someWeights (7 * 1) (7 * 3) (7 * 2)))) force kw s =
    RuleSet.eval R y xs keep (some (.series (someWeights 1 3 2))) force kw s :=
  fun _ y _ keep force kw _ => C85_scale_eval (by norm_num) (someWeights_times _ _ _ _) y keep force kw

/-- **C85 needs a positive factor.** With factor 0 there are no weights left, and `predict` raises. -/
theorem C85_factor_false : ∃ (R : RsEnv) (s : RuleSet) (w w' : Weights), TimesWeights 0 w w' ∧
    (RuleSet.predict R none (some (.series w)) s).1 = .ok [.label (.num (.fin 2)), .label (.num (.fin 2)), .label (.num .nan)] ∧
    (RuleSet.predict R none (some (.series w')) s).1 = .error .valueError :=
  ⟨cleanRs, setWith .regression [two], someWeights 1 1 1, someWeights (0 * 1) (0 * 1) (0 * 1), someWeights_times _ _ _ _, by decide +kernel,
    by decide +kernel⟩

/-! ## Rules of weight 0 -/

/-- **C85 (weight 0).** Without stacked activations, a ruleset predicts what it predicts without its rules whose weight is 0, NaN or not
in the Series, or raises the same exception. -/
theorem C85_zero (hk : s.ruleType = some k) (hk' : s'.ruleType = some k) (hu : R.stackedFit = false ∨ s.stacked = none)
    (hu' : R.stackedFit = false ∨ s'.stacked = none)
    (hr : s'.rules = s.rules.filter fun m => weighty w (R.condStr m.rule.cond)) (hne : s'.rules ≠ []) :
    (RuleSet.predict R xs (some (.series w)) s).1 = (RuleSet.predict R xs (some (.series w)) s').1 := by
  have hne0 : s.rules ≠ [] := by
    intro e
    rw [e] at hr
    exact hne hr
  have hmap : s'.rules.map (·.rule) = (s.rules.map (·.rule)).filter fun r => weighty w (R.condStr r.cond) := by
    rw [hr, List.filter_map]
    rfl
  rw [predict_weighted hne0 hk hu, predict_weighted hne hk' hu', hmap]
  have hne' : ((s.rules.map (·.rule)).filter fun r => weighty w ((voteEnv R k).condStr r.cond)) ≠ [] := by
    show ((s.rules.map (·.rule)).filter fun r => weighty w (R.condStr r.cond)) ≠ []
    rw [← hmap]
    simpa using hne
  dsimp only
  congr 1
  unfold weightedVote
  rw [regressor_skip hne', classifier_skip hne']
  rfl

/-- **C85 (no weight).** If every rule has weight 0, NaN or none, `predict` raises `ValueError` and leaves the ruleset as it is. -/
theorem C85_none (hk : s.ruleType = some k) (hu : R.stackedFit = false ∨ s.stacked = none) (hne : s.rules ≠ [])
    (h : ∀ m ∈ s.rules, weighty w (R.condStr m.rule.cond) = false) :
    RuleSet.predict R xs (some (.series w)) s = (.error .valueError, s) := by
  have hne' : s.rules.map (·.rule) ≠ [] := by simpa using hne
  have h' : ∀ r ∈ s.rules.map (·.rule), weighty w ((voteEnv R k).condStr r.cond) = false := by
    intro r hr
    obtain ⟨m, hm, rfl⟩ := List.mem_map.1 hr
    exact h m hm
  rw [predict_weighted hne hk hu]
  unfold weightedVote
  rw [regressor_none hne' h', classifier_none hne' h']
  split <;> rfl

/-- The rule which predicts 7 has weight 0; without it the same -/
example : (setWith .regression [two, five]).rules =
      (setWith .regression [two, seven, five]).rules.filter (fun m => weighty (someWeights 1 3 0) (cleanRs.condStr m.rule.cond)) ∧
    (RuleSet.predict cleanRs (some (.arr ⟨1, [[.fin 1], [.fin 5], [.fin 0]]⟩)) (some (.series (someWeights 1 3 0)))
      (setWith .regression [two, seven, five])).1 =
    (RuleSet.predict cleanRs (some (.arr ⟨1, [[.fin 1], [.fin 5], [.fin 0]]⟩)) (some (.series (someWeights 1 3 0)))
      (setWith .regression [two, five])).1 ∧
    (RuleSet.predict cleanRs (some (.arr ⟨1, [[.fin 1], [.fin 5], [.fin 0]]⟩)) (some (.series (someWeights 1 3 0)))
      (setWith .regression [two, five])).1 = .ok [.label (.num (.fin (17 / 4))), .label (.num (.fin (17 / 4))), .label (.num (.fin 2))] :=
  have h : (setWith .regression [two, five]).rules =
      (setWith .regression [two, seven, five]).rules.filter (fun m => weighty (someWeights 1 3 0) (cleanRs.condStr m.rule.cond)) := by
    decide +kernel
  ⟨h, C85_zero (k := .regression) rfl rfl (.inr rfl) (.inr rfl) h (List.cons_ne_nil _ _), by decide +kernel⟩

example : RuleSet.predict cleanRs none (some (.series (someWeights 0 3 0))) (setWith .classification [two, seven]) =
    (.error .valueError, setWith .classification [two, seven]) :=
  C85_none (k := .classification) rfl (.inr rfl) (List.cons_ne_nil _ _) (by decide +kernel)

/-! ## Equal weights -/

/-- **C85 (equal weights, classes).** Without stacked activations, classification rules which all have the same positive weight predict
what they predict without weights, or raise the same exception. -/
theorem C85_equal_classes (ha : 0 < a) (hk : s.ruleType = some .classification) (hu : R.stackedFit = false ∨ s.stacked = none)
    (hw : SameWeight R.condStr (rulesOf s) a w) :
    RuleSet.predict R xs (some (.series w)) s = RuleSet.predict R xs none s := by
  by_cases hne : s.rules = []
  · unfold RuleSet.predict
    simp only [Py.bind_run, Py.get_run, hne, List.length_nil, if_true]
  · have hv : weightedVote (voteEnv R .classification) (s.rules.map (·.rule)) w xs =
        equalClassifier (voteEnv R .classification) (s.rules.map (·.rule)) xs := classifier_same ha hw
    rw [predict_weighted hne hk hu, hv, predict_none hne hk hu, predict_none_classes (by rfl)]
    dsimp only
    rw [putBack_same]

/-- **C85 (equal weights, numbers), partial.** Without stacked activations, at most 255 regression rules which all have the same positive
weight predict what they predict without weights, or raise the same exception; remembered activations are made of 0 and 1.
Missing: more rules, for which it is false (`C85_equal_false`). -/
theorem C85_equal_numbers_partial (ha : 0 < a) (hk : s.ruleType = some .regression) (hu : R.stackedFit = false ∨ s.stacked = none)
    (hw : SameWeight R.condStr (rulesOf s) a w) (hn : s.rules.length ≤ 255)
    (hb : xs = none → ∀ r ∈ rulesOf s, ∀ u, r.activation = some u → ∀ x ∈ u, x ≤ 1) :
    (RuleSet.predict R xs (some (.series w)) s).1 = (RuleSet.predict R xs none s).1 := by
  by_cases hne : s.rules = []
  · unfold RuleSet.predict
    simp only [Py.bind_run, Py.get_run, hne, List.length_nil, if_true]
  · have hv : weightedRegressor (voteEnv R .regression) (s.rules.map (·.rule)) w xs =
        (equalRegressor (voteEnv R .regression) xs (s.rules.map (·.rule))).1 :=
      regressor_same ha (by simpa using hn) hw fun r hr v h => activationOf_le (fun e => hb e r hr) h
    rw [predict_weighted hne hk hu, predict_none hne hk hu, predict_none_numbers (by rfl), ← hv]
    rfl

/-- Colours with weight 3 each, and without weights -/
example : RuleSet.predict cleanRs none (some (.series (someWeights 3 3 3))) (setWith .classification [two, five, seven, two]) =
      RuleSet.predict cleanRs none none (setWith .classification [two, five, seven, two]) ∧
    (RuleSet.predict cleanRs none none (setWith .classification [two, five, seven, two])).1 =
      .ok [.label (.num (.fin 2)), .label (.num (.fin 2)), .label (.num (.fin 7))] :=
  ⟨C85_equal_classes (a := 3) (by norm_num) rfl (.inr rfl) (by
    simp only [SameWeight, rulesOf, setWith, List.map_cons, List.map_nil, List.forall_mem_cons, List.not_mem_nil, false_imp_iff,
      implies_true, and_true]
    decide +kernel), by decide +kernel⟩

example : (RuleSet.predict cleanRs none (some (.series (someWeights 3 3 3))) (setWith .regression [two, five, seven])).1 =
      (RuleSet.predict cleanRs none none (setWith .regression [two, five, seven])).1 ∧
    (RuleSet.predict cleanRs none none (setWith .regression [two, five, seven])).1 =
      .ok [.label (.num (.fin 2)), .label (.num (.fin (7 / 2))), .label (.num (.fin 7))] :=
  ⟨C85_equal_numbers_partial (a := 3) (by norm_num) rfl (.inr rfl) (by
    simp only [SameWeight, rulesOf, setWith, List.map_cons, List.map_nil, List.forall_mem_cons, List.not_mem_nil, false_imp_iff,
      implies_true, and_true]
    decide +kernel) (by decide) (by
    intro _
    simp only [rulesOf, setWith, List.map_cons, List.map_nil, List.forall_mem_cons, List.not_mem_nil, false_imp_iff,
      implies_true, and_true]
    refine ⟨?_, ?_, ?_⟩ <;> · rintro u e; cases e; decide), by decide +kernel⟩

/-- **C85 is false of 256 regression rules.** Each predicts 2 at the only point, with weight 1 as well; without weights the number of
rules, a byte, is 0 and the prediction infinite. -/
theorem C85_equal_false : ∃ (R : RsEnv) (s : RuleSet) (w : Weights), s.ruleType = some .regression ∧ SameWeight R.condStr (rulesOf s) 1 w ∧
    (RuleSet.predict R none (some (.series w)) s).1 = .ok [.label (.num (.fin 2))] ∧
    (RuleSet.predict R none none s).1 = .ok [.label (.num .inf)] :=
  ⟨cleanRs, setWith .regression (List.replicate 256 (voter 0 [1] (.num (.fin 2)))), fun _ => some (.fin 1), rfl, fun _ _ => rfl,
    by decide +kernel, by decide +kernel⟩

/-! ## Equal weights with stacked activations -/

/-- **C85 (equal weights, stacked activations), partial.** With stacked activations under `STACKED_FIT`, rules of either kind which all
have the same positive weight predict what they predict without weights, or raise the same exception.
Missing: rules which are active at no point, for which see `C85_equal_stacked_idle_partial`; if all are, it is false
(`C85_stacked_false`). -/
theorem C85_equal_stacked_partial (ha : 0 < a) {n : Nat} {on : Rule → Nat → Bool} {c : Columns Nat} (hk : s.ruleType = some k)
    (hkind : ∀ m ∈ s.rules, m.kind = k) (hu : R.stackedFit = true) (hc : s.stacked = some c)
    (hx : xs = none → c = stackOf (voteEnv R k) (rulesOf s) n on)
    (hact : ∀ r ∈ rulesOf s, activationOf (voteEnv R k).env xs r = .ok (some (vec n (on r))))
    (hon : ∀ r ∈ rulesOf s, ∃ i < n, on r i = true) (hd : DifferentNames (voteEnv R k) (rulesOf s))
    (hw : SameWeight R.condStr (rulesOf s) a w) :
    RuleSet.predict R xs (some (.series w)) s = RuleSet.predict R xs none s := by
  by_cases hne : s.rules = []
  · unfold RuleSet.predict
    simp only [Py.bind_run, Py.get_run, hne, List.length_nil, if_true]
  · have hst := stackFor_eq hkind hne hd hx hact
    have hne' : rulesOf s ≠ [] := by simpa [rulesOf] using hne
    have hheight : height (stackOf (voteEnv R k) (rulesOf s) n on) = n := by
      cases hr : rulesOf s with
      | nil => exact absurd hr hne'
      | cons r rest => simp [stackOf, height, vec]
    have hplain : Plain (stackOf (voteEnv R k) (rulesOf s) n on) := by
      refine ⟨?_, ?_, ?_, ?_⟩
      · unfold stackOf
        rw [List.map_map]
        exact hd
      · intro q hq x hx
        obtain ⟨r, -, rfl⟩ := List.mem_map.1 hq
        obtain ⟨i, -, rfl⟩ := List.mem_map.1 hx
        split <;> omega
      · intro q hq
        obtain ⟨r, hr, rfl⟩ := List.mem_map.1 hq
        obtain ⟨i, hi, h1⟩ := hon r hr
        exact List.mem_map.2 ⟨i, List.mem_range.2 hi, by rw [if_pos h1]⟩
      · intro q hq
        rw [hheight]
        obtain ⟨r, -, rfl⟩ := List.mem_map.1 hq
        simp [vec]
    have hp := predictStacked_same ha (S := voteEnv R k) (rules := rulesOf s) hplain (by
      intro q hq
      obtain ⟨r, hr, rfl⟩ := List.mem_map.1 hq
      exact ⟨r, hr, rfl⟩) hw
    unfold RuleSet.predict
    simp only [Py.bind_run, Py.get_run]
    rw [if_neg (by simpa using hne), hk, hu, hc]
    simp only [Py.bind_run, Py.ofExcept_run]
    unfold rulesOf at hst hp
    rw [hst]
    simp only [RuleSet.weightsOf, weightsFrom, Except.map]
    rw [hp, if_neg (by simpa using hne)]
    rfl

/-- The three rules with stacked activations -/
def stackedThree (k : Kind) : RuleSet :=
  { setWith k [two, five, seven] with stacked := some [("a", [1, 1, 0]), ("b", [0, 1, 0]), ("c", [0, 0, 1])] }

example : RuleSet.predict (withStackedFit cleanRs true) none (some (.series (someWeights 3 3 3))) (stackedThree .regression) =
      RuleSet.predict (withStackedFit cleanRs true) none none (stackedThree .regression) ∧
    (RuleSet.predict (withStackedFit cleanRs true) none none (stackedThree .regression)).1 =
      .ok [.label (.num (.fin 2)), .label (.num (.fin (7 / 2))), .label (.num (.fin 7))] :=
  ⟨C85_equal_stacked_partial (a := 3) (k := .regression) (n := 3) (on := isOn) (by norm_num) rfl (by decide) rfl rfl
    (fun _ => by decide +kernel) (by
      simp only [rulesOf, stackedThree, setWith, List.map_cons, List.map_nil, List.forall_mem_cons, List.not_mem_nil, false_imp_iff,
        implies_true, and_true]
      decide +kernel) (by
      simp only [rulesOf, stackedThree, setWith, List.map_cons, List.map_nil, List.forall_mem_cons, List.not_mem_nil, false_imp_iff,
        implies_true, and_true]
      decide +kernel) (by unfold DifferentNames; decide +kernel) (by
      simp only [SameWeight, rulesOf, stackedThree, setWith, List.map_cons, List.map_nil, List.forall_mem_cons, List.not_mem_nil,
        false_imp_iff, implies_true, and_true]
      decide +kernel), by decide +kernel⟩

/-- **C85 (weight 0, stacked activations), partial.** With stacked activations under `STACKED_FIT`, a ruleset predicts what it predicts
without its rules whose weight is 0, NaN or not in the Series, or raises the same exception.
Missing: rules with the same condition text, which share a column (`C25_same_text_false`), and classes of which some are numbers and some
are texts. -/
theorem C85_zero_stacked_partial {n : Nat} {on : Rule → Nat → Bool} {c c' : Columns Nat} {lab : Rule → Label} (hk : s.ruleType = some k)
    (hk' : s'.ruleType = some k) (hkind : ∀ m ∈ s.rules, m.kind = k) (hu : R.stackedFit = true) (hc : s.stacked = some c)
    (hc' : s'.stacked = some c') (hx : xs = none → c = stackOf (voteEnv R k) (rulesOf s) n on)
    (hx' : xs = none → c' = stackOf (voteEnv R k) (rulesOf s') n on)
    (hact : ∀ r ∈ rulesOf s, activationOf (voteEnv R k).env xs r = .ok (some (vec n (on r))))
    (hd : DifferentNames (voteEnv R k) (rulesOf s))
    (hp : ∀ r ∈ rulesOf s, r.getPrediction (voteEnv R k).env = .ok (some (lab r)))
    (ht : (∀ r ∈ rulesOf s, ∃ x, lab r = .num x) ∨ (k = .classification ∧ ∀ r ∈ rulesOf s, ∃ t, lab r = .text t))
    (hr : s'.rules = s.rules.filter fun m => weighty w (R.condStr m.rule.cond)) (hne : s'.rules ≠ []) :
    (RuleSet.predict R xs (some (.series w)) s).1 = (RuleSet.predict R xs (some (.series w)) s').1 := by
  have hne0 : s.rules ≠ [] := by
    intro e
    rw [e] at hr
    exact hne hr
  have hmap : rulesOf s' = (rulesOf s).filter fun r => weighty w (R.condStr r.cond) := by
    unfold rulesOf
    rw [hr, List.filter_map]
    rfl
  have hsub : ∀ r ∈ rulesOf s', r ∈ rulesOf s := fun r h => List.mem_of_mem_filter (hmap ▸ h)
  have hd' : DifferentNames (voteEnv R k) (rulesOf s') := by
    rw [hmap]
    exact List.Nodup.sublist (List.Sublist.map _ List.filter_sublist) hd
  have hst := stackFor_eq hkind hne0 hd hx hact
  have hst' := stackFor_eq (fun m hm => hkind m (List.mem_of_mem_filter (hr ▸ hm))) hne hd' hx' fun r h => hact r (hsub r h)
  have hlight := predictStacked_light (S := voteEnv R k) (n := n) (on := on) (lab := lab) (w := w) hd hmap
    (by simpa [rulesOf] using hne) hp ht
  have run : ∀ (t : RuleSet) (d : Columns Nat), t.ruleType = some k → t.stacked = some d → t.rules ≠ [] →
      RuleSet.stackFor R xs t d = .ok (stackOf (voteEnv R k) (rulesOf t) n on) →
      (RuleSet.predict R xs (some (.series w)) t).1 =
        predictStacked (voteEnv R k) (rulesOf t) (stackOf (voteEnv R k) (rulesOf t) n on) (some w) := by
    intro t d htk htd hne hst
    unfold RuleSet.predict
    simp only [Py.bind_run, Py.get_run]
    rw [if_neg (by simpa using hne), htk, hu, htd]
    simp only [Py.bind_run, Py.ofExcept_run]
    rw [hst]
    simp only [RuleSet.weightsOf, weightsFrom, Except.map]
  rw [run s c hk hc hne0 hst, run s' c' hk' hc' hne hst', hlight]

example : (RuleSet.predict (withStackedFit cleanRs true) none (some (.series (someWeights 1 3 0))) (stackedThree .regression)).1 =
      (RuleSet.predict (withStackedFit cleanRs true) none (some (.series (someWeights 1 3 0)))
        { setWith .regression [two, five] with stacked := some [("a", [1, 1, 0]), ("b", [0, 1, 0])] }).1 ∧
    (RuleSet.predict (withStackedFit cleanRs true) none (some (.series (someWeights 1 3 0))) (stackedThree .regression)).1 =
      .ok [.label (.num (.fin 2)), .label (.num (.fin (17 / 4))), .label (.num .nan)] :=
  ⟨C85_zero_stacked_partial (k := .regression) (n := 3) (on := isOn) (lab := fun r => if r.prediction = two.prediction then .num (.fin 2) else if r.prediction = five.prediction then .num (.fin 5) else .num (.fin 7)) rfl rfl (by decide)
    rfl rfl rfl (fun _ => by decide +kernel) (fun _ => by decide +kernel) (by
      simp only [rulesOf, stackedThree, setWith, List.map_cons, List.map_nil, List.forall_mem_cons, List.not_mem_nil, false_imp_iff,
        implies_true, and_true]
      decide +kernel) (by unfold DifferentNames; decide +kernel) (by
      simp only [rulesOf, stackedThree, setWith, List.map_cons, List.map_nil, List.forall_mem_cons, List.not_mem_nil, false_imp_iff,
        implies_true, and_true]
      decide +kernel) (.inl (by
      simp only [rulesOf, stackedThree, setWith, List.map_cons, List.map_nil, List.forall_mem_cons, List.not_mem_nil, false_imp_iff,
        implies_true, and_true]
      exact ⟨⟨_, rfl⟩, ⟨_, rfl⟩, ⟨_, rfl⟩⟩)) (by decide +kernel) (by decide +kernel), by decide +kernel⟩

/-- **C85 is false of stacked activations where no rule is active.** With equal weights `predict` raises `ValueError`, without weights it
predicts NaN. -/
theorem C85_stacked_false : ∃ (R : RsEnv) (s : RuleSet) (w : Weights) (x : Xs), s.ruleType = some .regression ∧
    SameWeight R.condStr (rulesOf s) 3 w ∧
    (RuleSet.predict R (some x) (some (.series w)) s).1 = .error .valueError ∧
    (RuleSet.predict R (some x) none s).1 = .ok [.label (.num .nan), .label (.num .nan)] :=
  ⟨withStackedFit cleanRs true, stackedThree .regression, someWeights 3 3 3, .arr ⟨1, [[.fin (-5)], [.fin (-6)]]⟩, rfl, (by
      simp only [SameWeight, rulesOf, stackedThree, setWith, List.map_cons, List.map_nil, List.forall_mem_cons, List.not_mem_nil,
        false_imp_iff, implies_true, and_true]
      decide +kernel), by decide +kernel, by decide +kernel⟩

end Verif.WeightRatioProps
