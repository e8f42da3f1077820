import Verif.MeanLemmas
import Verif.RuleProps

/-!
# Properties of the predictions of rulesets: C21 to C24
-/

namespace Verif.VoteProps

open Verif Spec Vote

/-! ## Example data -/

/-- Rules are named after their lower bound. -/
def someSet (kind : Kind) : SetEnv where
  env := RuleProps.someEnv kind
  condStr := fun c =>
    if c.bmins = some [.fin 0] then "a" else if c.bmins = some [.fin 1] then "b" else if c.bmins = some [.fin 2] then "c" else "d"
  storedRaw := fun _ => true

/-- A rule with a lower bound, an activation vector and a prediction -/
def voter (lo : Rat) (v : List Nat) (l : Label) : Rule :=
  { Rule.blank { indexes := some [0], bmins := some [.fin lo], bmaxs := some [.fin 9], names := some ["a"], impossible := false }
    (some v) with prediction := .label l }

/-- Where its stored vector is 1 -/
def isOn (r : Rule) (i : Nat) : Bool := ((r.act.getD [])[i]?).getD 0 == 1

/-- The number it predicts -/
def number (r : Rule) : Rat :=
  match r.prediction with
  | .label (.num (.fin q)) => q
  | _ => 0

/-- The class it predicts -/
def classOf (r : Rule) : Label :=
  match r.prediction with
  | .label l => l
  | _ => .num .nan

/-- Weights of the rules named "a", "b", "c" -/
def someWeights (a b c : Rat) : Weights := fun s =>
  if s = "a" then some (.fin a) else if s = "b" then some (.fin b) else if s = "c" then some (.fin c) else none

/-- The same by rule -/
def weightIn (S : SetEnv) (w : Weights) (r : Rule) : Rat :=
  match w (S.condStr r.cond) with
  | some (.fin q) => q
  | _ => 0

/-! ## C21 -/

/-- **C21 (unstacked).** The prediction of a ruleset at a point is the mean of the predictions of the rules active there,
weighted by weights which are not negative; it lies between two of them, and is missing exactly where the active rules have no
weight.  The rules are unchanged.
Missing: it is assumed that only one rule has a weight, or that the first one which has a weight does not predict 0 and no
weighted sum is 0 where there is an active weight (`C21_cancel_false`, `C21_zero_false`); that some rule has a weight
(`C21_no_weight_false`); and that predictions are numbers (`C21_nan_false`). -/
theorem C21_unstacked_partial {S : SetEnv} {w : Weights} {xs : Option Xs} {rules : List Rule} {n : Nat}
    {on : Rule → Nat → Bool} {p wt : Rule → Rat} (hk : S.env.kind = .regression) (h : Regressors S xs rules n on p)
    (hw : WeightsAre S w rules wt) (hpos : ∀ r ∈ rules, 0 ≤ wt r) (hv : ∃ r ∈ rules, wt r ≠ 0)
    (hs : (voters rules wt).length = 1 ∨ ((∀ i < n, activeSum rules on wt i ≠ 0 → activeSum rules on (fun r => p r * wt r) i ≠ 0) ∧
      ∀ r rest, voters rules wt = r :: rest → p r ≠ 0)) :
    ∃ l : List Num, predictUnstacked S (some w) xs rules = (.ok (l.map .num), rules) ∧ l.length = n ∧
      ∀ i < n, ∃ x, l[i]? = some x ∧ IsWeightedMean rules on p wt i x := by
  have hne : voters rules wt ≠ [] := by
    obtain ⟨r, hr, h0⟩ := hv
    exact List.ne_nil_of_mem (List.mem_filter.2 ⟨hr, by simpa using h0⟩)
  refine ⟨table n fun i => Num.div (.fin (activeSum rules on (fun r => p r * wt r) i)) (.fin (activeSum rules on wt i)), ?_,
    table_length n _, ?_⟩
  rotate_left
  · intro i hi
    refine ⟨_, by rw [table, List.getElem?_map, List.getElem?_range hi]; rfl, weightedMean_div i hpos⟩
  · unfold predictUnstacked
    rw [Py.bind_run]
    simp only [Py.get_run, hk]
    rw [Py.bind_run, weightedRegressor_eq h hw hne (safe_not_zero hs)]
    simp only [Py.ofExcept_run, Py.pure_run]
    rw [table_congr fun i hi => safe_div hi hpos hs]

/-- **C21 (stacked).** The same for the stacked computation, without condition on the predictions.
Missing: two rules with the same condition text are counted once, and when no rule with a weight is active at any point the
stacked computation raises (`C21_stacked_none_false`). -/
theorem C21_stacked_partial {S : SetEnv} {w : Weights} {xs : Option Xs} {rules : List Rule} {n : Nat}
    {on : Rule → Nat → Bool} {p wt : Rule → Rat} (hk : S.env.kind = .regression) (h : Regressors S xs rules n on p)
    (hw : WeightsAre S w rules wt) (hpos : ∀ r ∈ rules, 0 ≤ wt r) (hd : DifferentNames S rules)
    (hv : ∃ r ∈ rules, wt r ≠ 0 ∧ ∃ i < n, on r i = true) :
    ∃ l : List Num, predictStacked S rules (stackOf S rules n on) (some w) = .ok (l.map fun x => .label (.num x)) ∧
      l.length = n ∧ ∀ i < n, ∃ x, l[i]? = some x ∧ IsWeightedMean rules on p wt i x := by
  have hh : heard rules wt on n ≠ [] := by
    obtain ⟨r, hr, h0, i, hi, ho⟩ := hv
    refine List.ne_nil_of_mem (List.mem_filter.2 ⟨hr, ?_⟩)
    simp only [decide_eq_true_eq]
    exact ⟨h0, i, List.mem_range.2 hi, ho⟩
  refine ⟨_, predictStacked_weighted hk h.points h.pred hw hd hh, table_length n _, ?_⟩
  intro i hi
  refine ⟨_, by rw [table, List.getElem?_map, List.getElem?_range hi]; rfl, ?_⟩
  simp only
  rw [activeSum_voters (fun _ _ h => h), activeSum_voters (fun _ _ h => by simp [h])]
  exact weightedMean_div i hpos

/-- The stacked activations computed from features are one column per rule. -/
theorem C21_stack {S : SetEnv} {xs : Xs} {rules : List Rule} {n : Nat} {on : Rule → Nat → Bool} {p : Rule → Rat}
    (h : Regressors S (some xs) rules n on p) (hd : DifferentNames S rules) :
    stackedFrom S xs rules = .ok (stackOf S rules n on) :=
  stackedFrom_eq hd h.act

/-- **C21 (both computations agree)**, under the conditions of both. -/
theorem C21_agree_partial {S : SetEnv} {w : Weights} {xs : Option Xs} {rules : List Rule} {n : Nat}
    {on : Rule → Nat → Bool} {p wt : Rule → Rat} (hk : S.env.kind = .regression) (h : Regressors S xs rules n on p)
    (hw : WeightsAre S w rules wt) (hpos : ∀ r ∈ rules, 0 ≤ wt r) (hd : DifferentNames S rules)
    (hv : ∃ r ∈ rules, wt r ≠ 0 ∧ ∃ i < n, on r i = true)
    (hs : (voters rules wt).length = 1 ∨ ((∀ i < n, activeSum rules on wt i ≠ 0 → activeSum rules on (fun r => p r * wt r) i ≠ 0) ∧
      ∀ r rest, voters rules wt = r :: rest → p r ≠ 0)) :
    ∃ l : List Num, (predictUnstacked S (some w) xs rules).1 = .ok (l.map .num) ∧
      predictStacked S rules (stackOf S rules n on) (some w) = .ok (l.map fun x => .label (.num x)) := by
  obtain ⟨r, hr, h0, i, hi, ho⟩ := hv
  have hh : heard rules wt on n ≠ [] := by
    refine List.ne_nil_of_mem (List.mem_filter.2 ⟨hr, ?_⟩)
    simp only [decide_eq_true_eq]
    exact ⟨h0, i, List.mem_range.2 hi, ho⟩
  have hne : voters rules wt ≠ [] := List.ne_nil_of_mem (List.mem_filter.2 ⟨hr, by simpa using h0⟩)
  refine ⟨_, ?_, predictStacked_weighted hk h.points h.pred hw hd hh⟩
  unfold predictUnstacked
  rw [Py.bind_run]
  simp only [Py.get_run, hk]
  rw [Py.bind_run, weightedRegressor_eq h hw hne (safe_not_zero hs)]
  simp only [Py.ofExcept_run, Py.pure_run]
  rw [table_congr fun i hi => safe_div hi hpos hs]
  simp only [activeSum_voters (rules := rules) (wt := wt) (f := wt) (fun _ _ h => h),
    activeSum_voters (rules := rules) (wt := wt) (f := fun r => p r * wt r) (fun _ _ h => by simp [h])]

/-- **C21 (order).** When no rule with a weight predicts 0, the prediction does not depend on the order of the rules.
Missing: rules which predict 0, `C21_order_false`. -/
theorem C21_order_partial {S : SetEnv} {w : Weights} {xs : Option Xs} {rules rules' : List Rule} {n : Nat}
    {on : Rule → Nat → Bool} {p wt : Rule → Rat} (hk : S.env.kind = .regression) (h : Regressors S xs rules n on p)
    (hw : WeightsAre S w rules wt) (hpos : ∀ r ∈ rules, wt r ≠ 0 → p r ≠ 0) (hp : rules.Perm rules') :
    (predictUnstacked S (some w) xs rules).1 = (predictUnstacked S (some w) xs rules').1 := by
  have h' : Regressors S xs rules' n on p := ⟨h.points, fun r hr => h.act r (hp.mem_iff.2 hr),
    fun r hr => h.pred r (hp.mem_iff.2 hr), fun r hr => h.feature r (hp.mem_iff.2 hr)⟩
  have hw' : WeightsAre S w rules' wt := fun r hr => hw r (hp.mem_iff.2 hr)
  have hvp : (voters rules wt).Perm (voters rules' wt) := hp.filter _
  have hz : ∀ l : List Rule, (∀ r ∈ l, r ∈ rules) → ¬ ZeroFirst (voters l wt) on (fun r => p r * wt r) n := by
    rintro l hl ⟨r, rest, e, h0, -⟩
    have hr : r ∈ voters l wt := by rw [e]; simp
    have hr := List.mem_filter.1 hr
    have hwr : wt r ≠ 0 := by simpa using hr.2
    exact (mul_ne_zero (hpos r (hl r hr.1) hwr) hwr) h0
  by_cases hne : voters rules wt = []
  · have hne' : voters rules' wt = [] := by rw [hne] at hvp; exact hvp.symm.eq_nil
    have key : ∀ l : List Rule, Regressors S xs l n on p → WeightsAre S w l wt → voters l wt = [] →
        weightedRegressor S l w xs = if l.length = 0 then .ok [] else .error .valueError := by
      intro l hl hwl hv
      unfold weightedRegressor
      split
      · rfl
      · have := weighted_loop hl hwl [] none (by simp)
        rw [List.nil_append, hv, if_neg (by simp), if_pos rfl] at this
        rw [this]
        rfl
    unfold predictUnstacked
    rw [Py.bind_run, Py.bind_run]
    simp only [Py.get_run, hk]
    rw [Py.bind_run, Py.bind_run, key _ h hw hne, key _ h' hw' hne', hp.length_eq]
    by_cases hl : rules'.length = 0 <;> simp [hl]
  · have hne' : voters rules' wt ≠ [] := fun e => hne (by rw [e] at hvp; exact hvp.eq_nil)
    unfold predictUnstacked
    rw [Py.bind_run, Py.bind_run]
    simp only [Py.get_run, hk]
    rw [Py.bind_run, Py.bind_run, weightedRegressor_eq h hw hne fun _ => hz rules fun _ h => h,
      weightedRegressor_eq h' hw' hne' fun _ => hz rules' fun _ h => hp.mem_iff.2 h]
    simp only [Py.ofExcept_run, Py.pure_run]
    have hc : ∀ i, cumulated (voters rules wt) on (fun r => p r * wt r) i =
        cumulated (voters rules' wt) on (fun r => p r * wt r) i := by
      intro i
      match hl : voters rules wt, hl' : voters rules' wt, hvp with
      | [r], [r'], hvp =>
        have := hvp.singleton_eq
        cases this
        rfl
      | [], l, _ => exact absurd hl hne
      | _ :: _, [], _ => exact absurd hl' hne'
      | [r], a :: b :: l, hvp => exact absurd hvp.length_eq (by simp)
      | a :: b :: l, [r], hvp => exact absurd hvp.length_eq (by simp)
      | a :: b :: l, c :: d :: l', hvp =>
        simp only [cumulated, activeSum_perm hvp]
    simp only [hc, activeSum_perm hvp]

/-- Two weighted rules active together, one without a weight, a point without rule. -/
example :
    let S := someSet .regression
    let rules := [voter 0 [1, 1, 0] (.num (.fin 2)), voter 1 [0, 1, 0] (.num (.fin 5)), voter 2 [1, 1, 1] (.num (.fin 7))]
    let w := someWeights 1 3 0
    S.env.kind = .regression ∧ Regressors S none rules 3 isOn number ∧ WeightsAre S w rules (weightIn S w) ∧
      (∀ r ∈ rules, 0 ≤ weightIn S w r) ∧ DifferentNames S rules ∧
      (∀ r ∈ rules, weightIn S w r ≠ 0 → number r ≠ 0) ∧
      (∀ i < 3, activeSum rules isOn (weightIn S w) i ≠ 0 → activeSum rules isOn (fun r => number r * weightIn S w r) i ≠ 0) ∧
      (∀ r rest, voters rules (weightIn S w) = r :: rest → number r ≠ 0) ∧
      (predictUnstacked S (some w) none rules).1 = .ok [.num (.fin 2), .num (.fin (17 / 4)), .num .nan] ∧
      predictStacked S rules (stackOf S rules 3 isOn) (some w) =
        .ok [.label (.num (.fin 2)), .label (.num (.fin (17 / 4))), .label (.num .nan)] := by
  refine ⟨rfl, ⟨by decide, ?_, ?_, ?_⟩, ?_, ?_, by unfold DifferentNames; decide +kernel, ?_, by decide +kernel, ?_, by decide +kernel, by decide +kernel⟩
  · simp only [List.forall_mem_cons, List.not_mem_nil, false_imp_iff, implies_true, and_true]
    decide +kernel
  · simp only [List.forall_mem_cons, List.not_mem_nil, false_imp_iff, implies_true, and_true]
    decide +kernel
  · simp only [List.forall_mem_cons, List.not_mem_nil, false_imp_iff, implies_true, and_true]
    decide +kernel
  · unfold WeightsAre
    simp only [List.forall_mem_cons, List.not_mem_nil, false_imp_iff, implies_true, and_true]
    decide +kernel
  · simp only [List.forall_mem_cons, List.not_mem_nil, false_imp_iff, implies_true, and_true]
    decide +kernel
  · simp only [List.forall_mem_cons, List.not_mem_nil, false_imp_iff, implies_true, and_true]
    decide +kernel
  · intro r rest e
    have hv : voters [voter 0 [1, 1, 0] (.num (.fin 2)), voter 1 [0, 1, 0] (.num (.fin 5)), voter 2 [1, 1, 1] (.num (.fin 7))]
        (weightIn (someSet .regression) (someWeights 1 3 0)) =
        [voter 0 [1, 1, 0] (.num (.fin 2)), voter 1 [0, 1, 0] (.num (.fin 5))] := by
      simp [voters, weightIn, someSet, someWeights, voter, Rule.blank]
    rw [hv] at e
    cases e
    decide +kernel

/-- **C21, C23 (weights named by an attribute).** With `weights="criterion"` (or another attribute) each rule gets the value of
this attribute as its weight, and the rules which have none, or NaN, have no weight; so the theorems on weights given by rule
name apply.
Missing: two rules with the same condition text get the weight of the last one. -/
theorem C21_attribute_partial {S : SetEnv} {rules : List Rule} {name : String} {wt : Rule → Rat} (hd : DifferentNames S rules)
    (hw : ∀ r ∈ rules, r.getattr S.env name = .ok (.num (.fin (wt r))) ∨
      wt r = 0 ∧ (r.getattr S.env name = .ok (.num .nan) ∨ r.getattr S.env name = .ok .none)) :
    ∃ w, weightsFrom S rules (.attr name) = .ok w ∧ WeightsAre S w rules wt := by
  let val : Rule → Num := fun r => match r.getattr S.env name with
    | .ok (.num x) => x
    | _ => .nan
  have hv : ∀ r ∈ rules, (r.getattr S.env name).bind weightAttr = .ok (val r) ∧
      (val r = .fin (wt r) ∨ wt r = 0 ∧ val r = .nan) := by
    intro r hr
    simp only [val]
    rcases hw r hr with h | ⟨h0, h | h⟩
    · rw [h]
      exact ⟨rfl, Or.inl rfl⟩
    · rw [h]
      exact ⟨rfl, Or.inr ⟨h0, rfl⟩⟩
    · rw [h]
      exact ⟨rfl, Or.inr ⟨h0, rfl⟩⟩
  refine ⟨fun n => lookup (rules.map fun r => (S.condStr r.cond, val r)) n, ?_, ?_⟩
  · unfold weightsFrom
    simp only
    rw [mapM_ok (g := fun r => (S.condStr r.cond, val r)) fun r hr => by
      have := (hv r hr).1
      cases hg : r.getattr S.env name with
      | error e => rw [hg] at this; cases this
      | ok a =>
        rw [hg] at this
        have this : weightAttr a = .ok (val r) := this
        simp only [bind, Except.bind, this, pure, Except.pure]]
    simp only [bind, Except.bind]
    rw [dictOf_nodup (by unfold DifferentNames at hd; simpa [List.map_map, Function.comp_def] using hd)]
  · intro r hr
    simp only [lookup_map hd val hr, Option.some.injEq]
    rcases (hv r hr).2 with h | ⟨h0, h⟩
    · exact Or.inl h
    · exact Or.inr ⟨h0, Or.inr h⟩

/-- The criterion as weight, negative for one rule and missing for another one -/
example :
    let S := someSet .regression
    let rules := [{ voter 0 [1] (.num (.fin 2)) with criterion := .num (.fin (-2)) },
      { voter 1 [1] (.num (.fin 2)) with criterion := .none }, { voter 2 [1] (.num (.fin 2)) with criterion := .num (.fin 3) }]
    let wt : Rule → Rat := fun r => match r.criterion with | .num (.fin q) => q | _ => 0
    DifferentNames S rules ∧ ∀ r ∈ rules, r.getattr S.env "criterion" = .ok (.num (.fin (wt r))) ∨
      wt r = 0 ∧ (r.getattr S.env "criterion" = .ok (.num .nan) ∨ r.getattr S.env "criterion" = .ok .none) := by
  refine ⟨by unfold DifferentNames; decide +kernel, ?_⟩
  simp only [List.forall_mem_cons, List.not_mem_nil, false_imp_iff, implies_true, and_true]
  decide +kernel

/-- **C21 is false of the unstacked computation when predictions cancel:** two rules active at the same point, predicting 1 and
-1 with the weight 1; the mean is 0 but the prediction is missing, while the stacked computation gives 0. -/
theorem C21_cancel_false :
    let S := someSet .regression
    let rules := [voter 0 [1] (.num (.fin 1)), voter 1 [1] (.num (.fin (-1)))]
    let w := someWeights 1 1 0
    (predictUnstacked S (some w) none rules).1 = .ok [.num .nan] ∧
      predictStacked S rules (stackOf S rules 1 isOn) (some w) = .ok [.label (.num (.fin 0))] ∧
      activeSum rules isOn (weightIn S w) 0 = 2 := by
  decide +kernel

/-- **C21 is false when the first rule predicts 0:** with a second rule, the unstacked computation raises `TypeError`, for any
rules, weights and points. -/
theorem C21_zero_false {S : SetEnv} {w : Weights} {xs : Option Xs} {rules : List Rule} {n : Nat}
    {on : Rule → Nat → Bool} {p wt : Rule → Rat} (hk : S.env.kind = .regression) (h : Regressors S xs rules n on p)
    (hw : WeightsAre S w rules wt) {r r' : Rule} {rest : List Rule} (hv : voters rules wt = r :: r' :: rest) (h0 : p r = 0)
    (ho : ∃ i < n, on r i = true) : predictUnstacked S (some w) xs rules = (.error .typeError, rules) := by
  unfold predictUnstacked
  rw [Py.bind_run]
  simp only [Py.get_run, hk]
  rw [Py.bind_run]
  have hne : rules.length ≠ 0 := by
    intro e
    rw [List.length_eq_zero_iff] at e
    rw [e] at hv
    cases hv
  have := weighted_loop h hw [] none (by simp)
  rw [List.nil_append, if_pos ⟨by rw [hv]; simp, by simp, r, r' :: rest, hv, by simp [h0], ho⟩] at this
  simp only [weightedRegressor, if_neg hne, this, bind, Except.bind, Py.ofExcept_run]

/-- **C21: the order matters** when a rule predicts 0: in one order the prediction is 1/2, in the other it raises. -/
theorem C21_order_false :
    let S := someSet .regression
    let a := voter 0 [1] (.num (.fin 0))
    let b := voter 1 [1] (.num (.fin 1))
    (predictUnstacked S (some (someWeights 1 1 0)) none [b, a]).1 = .ok [.num (.fin (1 / 2))] ∧
      (predictUnstacked S (some (someWeights 1 1 0)) none [a, b]).1 = .error .typeError := by
  decide +kernel

/-- **C21: without any weight the prediction is not missing but raises** `ValueError`, for any rules. -/
theorem C21_no_weight_false {S : SetEnv} {w : Weights} {xs : Option Xs} {rules : List Rule} {n : Nat}
    {on : Rule → Nat → Bool} {p wt : Rule → Rat} (hk : S.env.kind = .regression) (h : Regressors S xs rules n on p)
    (hw : WeightsAre S w rules wt) (hne : rules ≠ []) (hv : ∀ r ∈ rules, wt r = 0) :
    predictUnstacked S (some w) xs rules = (.error .valueError, rules) := by
  have hv : voters rules wt = [] := by
    unfold voters
    rw [List.filter_eq_nil_iff]
    intro r hr
    simp [hv r hr]
  have hl : rules.length ≠ 0 := by simpa using hne
  unfold predictUnstacked
  rw [Py.bind_run]
  simp only [Py.get_run, hk]
  rw [Py.bind_run]
  have := weighted_loop h hw [] none (by simp)
  rw [List.nil_append, hv, if_neg (by simp), if_pos rfl] at this
  simp only [weightedRegressor, if_neg hl, this, bind, Except.bind, Py.ofExcept_run]

/-- **C21: the stacked computation raises** when no rule with a weight is active at any point, where the other one gives missing
predictions. -/
theorem C21_stacked_none_false :
    let S := someSet .regression
    let rules := [voter 0 [0, 0] (.num (.fin 1)), voter 1 [0, 0] (.num (.fin 2))]
    let w := someWeights 1 1 0
    (predictUnstacked S (some w) none rules).1 = .ok [.num .nan, .num .nan] ∧
      predictStacked S rules (stackOf S rules 2 isOn) (some w) = .error .valueError := by
  decide +kernel

/-- **C21: a rule which predicts NaN** counts as a rule predicting 0 in the unstacked computation: next to a rule which predicts 2
the prediction is 1; the stacked computation ignores it. -/
theorem C21_nan_false :
    let S := someSet .regression
    let rules := [voter 0 [1] (.num .nan), voter 1 [1] (.num (.fin 2))]
    let w := someWeights 1 1 0
    (predictUnstacked S (some w) none rules).1 = .ok [.num (.fin 1)] ∧
      predictStacked S rules (stackOf S rules 1 isOn) (some w) = .ok [.label (.num (.fin 2))] := by
  decide +kernel

/-! ## C22 -/

/-- **C22 (unstacked).** Without weights, the prediction at a point is the mean of the predictions of the rules active there,
missing if there is none; and the rules are unchanged.
Missing: it is assumed that there is only one rule, or that the first one does not predict 0 and no sum is 0 where a rule is
active (`C22_cancel_false`, `C22_zero_false`); that at most 255 rules are active at a point (`C22_count_false`); and, for the
rules to be unchanged, that features are given, or that the first activation is not stored as an array, or that there is only
one rule (`C22_changes_false`). -/
theorem C22_unstacked_partial {S : SetEnv} {xs : Option Xs} {rules : List Rule} {n : Nat} {on : Rule → Nat → Bool}
    {p : Rule → Rat} (hk : S.env.kind = .regression) (h : Regressors S xs rules n on p) (hne : rules ≠ [])
    (hs : rules.length = 1 ∨ ((∀ i < n, activeCount rules on i ≠ 0 → activeSum rules on p i ≠ 0) ∧
      ∀ r rest, rules = r :: rest → p r ≠ 0)) (hc : ∀ i < n, activeCount rules on i < 256) :
    (∃ l : List Num, (predictUnstacked S none xs rules).1 = .ok (l.map .num) ∧ l.length = n ∧
      ∀ i < n, ∃ x, l[i]? = some x ∧ IsMean rules on p i x) ∧
    (rules.length = 1 ∨ xs ≠ none ∨ (∀ r rest, rules = r :: rest → S.storedRaw r = false) →
      (predictUnstacked S none xs rules).2 = rules) := by
  match rules, hne with
  | r :: rules, _ =>
    have hz : rules ≠ [] → ¬ ZeroFirst (r :: rules) on p n := by
      rintro hr ⟨r0, rest, e, h0, -⟩
      cases e
      rcases hs with h1 | ⟨-, h2⟩
      · exact hr (by simpa using h1)
      · exact h2 r rules rfl h0
    have hrun : predictUnstacked S none xs (r :: rules) = ((.ok ((table n fun i => Num.div (.fin (activeSum (r :: rules) on p i))
        (.fin (activeCount (r :: rules) on i))).map .num)),
        if rules = [] then r :: rules else writeBack (aliased S xs 0 r) (bytes n (r :: rules) on) (r :: rules)) := by
      unfold predictUnstacked
      rw [Py.bind_run]
      simp only [Py.get_run, hk]
      rw [Py.bind_run, equalRegressor_eq h hz]
      simp only [Py.pure_run]
      rw [table_congr fun i hi => ?_]
      rw [Nat.mod_eq_of_lt (hc i hi)]
      refine cumulated_div ?_ ?_
      · intro h0
        rw [Nat.cast_eq_zero] at h0
        have : (r :: rules).filter (fun r => on r i) = [] := by simpa [activeCount] using h0
        simp [activeSum, this]
      · intro h0
        rcases hs with h1 | ⟨h2, -⟩
        · refine .inr ⟨h1, ?_⟩
          have : rules = [] := by simpa using h1
          subst this
          intro s hs
          rw [List.mem_singleton] at hs
          subst hs
          by_contra ho
          apply h0
          simp [activeCount, ho]
        · exact .inl (h2 i hi (by simpa using h0))
    rw [hrun]
    refine ⟨⟨_, rfl, table_length n _, fun i hi =>
      ⟨_, by rw [table, List.getElem?_map, List.getElem?_range hi]; rfl, mean_div i⟩⟩, ?_⟩
    rintro (h1 | h1 | h1)
    · have : rules = [] := by simpa using h1
      simp [this]
    · have : aliased S xs 0 r = none := by
        unfold aliased
        cases xs with
        | none => exact absurd rfl h1
        | some x => simp
      simp [this, writeBack]
    · have : aliased S xs 0 r = none := by
        unfold aliased
        simp [h1 r rules rfl]
      simp [this, writeBack]

/-- **C22 (stacked).** In the stacked computation this holds without these conditions, for rules whose condition texts
differ. -/
theorem C22_stacked {S : SetEnv} {xs : Option Xs} {rules : List Rule} {n : Nat} {on : Rule → Nat → Bool}
    {p : Rule → Rat} (hk : S.env.kind = .regression) (h : Regressors S xs rules n on p) (hne : rules ≠ [])
    (hd : DifferentNames S rules) :
    ∃ l : List Num, predictStacked S rules (stackOf S rules n on) none = .ok (l.map fun x => .label (.num x)) ∧ l.length = n ∧
      ∀ i < n, ∃ x, l[i]? = some x ∧ IsMean rules on p i x :=
  ⟨_, predictStacked_equal hk h.points hne h.pred hd, table_length n _, fun i hi =>
    ⟨_, by rw [table, List.getElem?_map, List.getElem?_range hi]; rfl, mean_div i⟩⟩

/-- The mean determines the value, so that both computations agree when both are means. -/
theorem C22_mean_unique {rules : List Rule} {on : Rule → Nat → Bool} {p : Rule → Rat} {i : Nat} {x y : Num}
    (hx : IsMean rules on p i x) (hy : IsMean rules on p i y) : x = y := by
  by_cases h0 : activeCount rules on i = 0
  · rw [hx.2 h0, hy.2 h0]
  · obtain ⟨m, rfl, h1, -⟩ := hx.1 h0
    obtain ⟨m', rfl, h2, -⟩ := hy.1 h0
    have : (activeCount rules on i : Rat) ≠ 0 := by exact_mod_cast h0
    rw [mul_right_cancel₀ this (h1.trans h2.symm)]

/-- Two rules active together, and a point without rule. -/
example :
    let S := someSet .regression
    let rules := [voter 0 [1, 1, 0] (.num (.fin 2)), voter 1 [0, 1, 0] (.num (.fin 5))]
    S.env.kind = .regression ∧ Regressors S none rules 3 isOn number ∧ DifferentNames S rules ∧
      (∀ i < 3, activeCount rules isOn i ≠ 0 → activeSum rules isOn number i ≠ 0) ∧
      (∀ i < 3, activeCount rules isOn i < 256) ∧ (∀ r rest, rules = r :: rest → number r ≠ 0) ∧
      (predictUnstacked S none none rules).1 = .ok [.num (.fin 2), .num (.fin (7 / 2)), .num .nan] ∧
      predictStacked S rules (stackOf S rules 3 isOn) none =
        .ok [.label (.num (.fin 2)), .label (.num (.fin (7 / 2))), .label (.num .nan)] := by
  refine ⟨rfl, ⟨by decide, ?_, ?_, ?_⟩, by unfold DifferentNames; decide +kernel, by decide +kernel, by decide +kernel, ?_, by decide +kernel,
    by decide +kernel⟩
  · simp only [List.forall_mem_cons, List.not_mem_nil, false_imp_iff, implies_true, and_true]
    decide +kernel
  · simp only [List.forall_mem_cons, List.not_mem_nil, false_imp_iff, implies_true, and_true]
    decide +kernel
  · simp only [List.forall_mem_cons, List.not_mem_nil, false_imp_iff, implies_true, and_true]
    decide +kernel
  · intro r rest e
    cases e
    decide +kernel

/-- **C22 is false of the unstacked computation when predictions cancel.** -/
theorem C22_cancel_false :
    let S := someSet .regression
    let rules := [voter 0 [1] (.num (.fin 1)), voter 1 [1] (.num (.fin (-1)))]
    (predictUnstacked S none none rules).1 = .ok [.num .nan] ∧
      predictStacked S rules (stackOf S rules 1 isOn) none = .ok [.label (.num (.fin 0))] := by
  decide +kernel

/-- **C22: the unstacked computation raises `TypeError`** when the first of several rules predicts 0 and is active. -/
theorem C22_zero_false {S : SetEnv} {xs : Option Xs} {n : Nat} {on : Rule → Nat → Bool} {p : Rule → Rat} {r r' : Rule}
    {rules : List Rule} (hk : S.env.kind = .regression) (h : Regressors S xs (r :: r' :: rules) n on p) (h0 : p r = 0)
    (ho : ∃ i < n, on r i = true) :
    predictUnstacked S none xs (r :: r' :: rules) = (.error .typeError, r :: r' :: rules) := by
  unfold predictUnstacked
  rw [Py.bind_run]
  simp only [Py.get_run, hk]
  rw [Py.bind_run, equalRegressor_zero h ⟨r, r' :: rules, rfl, h0, ho⟩]

/-- **C22: 256 rules active at the same point**, all predicting 1: the prediction is infinite, because the number of active rules
is counted in one byte. -/
theorem C22_count_false :
    (predictUnstacked (someSet .regression) none none (List.replicate 256 (voter 0 [1] (.num (.fin 1))))).1 =
      .ok [.num .inf] := by
  have h : Regressors (someSet .regression) none (List.replicate 256 (voter 0 [1] (.num (.fin 1)))) 1 isOn number := by
    refine ⟨by decide, fun r hr => ?_, fun r hr => ?_, fun r hr => ?_⟩ <;> rw [List.eq_of_mem_replicate hr] <;> decide +kernel
  have hs : List.replicate 256 (voter 0 [1] (.num (.fin 1))) =
      voter 0 [1] (.num (.fin 1)) :: List.replicate 255 (voter 0 [1] (.num (.fin 1))) := rfl
  have hf : ∀ m, (List.replicate m (voter 0 [1] (.num (.fin 1)))).filter (fun r => isOn r 0) =
      List.replicate m (voter 0 [1] (.num (.fin 1))) := by
    intro m
    rw [List.filter_eq_self]
    intro r hr
    rw [List.eq_of_mem_replicate hr]
    rfl
  have hsum : activeSum (List.replicate 256 (voter 0 [1] (.num (.fin 1)))) isOn number 0 = 256 := by
    unfold activeSum
    rw [hf, List.map_replicate, List.sum_replicate]
    have : number (voter 0 [1] (.num (.fin 1))) = 1 := rfl
    rw [this]
    norm_num
  have hcnt : activeCount (List.replicate 256 (voter 0 [1] (.num (.fin 1)))) isOn 0 = 256 := by
    unfold activeCount
    rw [hf, List.length_replicate]
  have hcum : cumulated (List.replicate 256 (voter 0 [1] (.num (.fin 1)))) isOn number 0 = .fin 256 := by
    have : ∀ l : List Rule, 2 ≤ l.length → activeSum l isOn number 0 = 256 → cumulated l isOn number 0 = .fin 256 := by
      intro l hl hsum
      match l, hl with
      | a :: b :: l, _ => simp only [cumulated, hsum]; norm_num
    exact this _ (by rw [List.length_replicate]; omega) hsum
  unfold predictUnstacked
  rw [Py.bind_run]
  simp only [Py.get_run]
  have hk : (someSet .regression).env.kind = .regression := rfl
  rw [hk]
  simp only
  have heq := equalRegressor_eq (hs ▸ h) (fun _ => by
    rintro ⟨r, rest, e, h0, -⟩
    cases e
    exact absurd h0 (by decide +kernel))
  rw [← hs] at heq
  rw [Py.bind_run, heq]
  simp only [Py.pure_run, table, List.range_one, List.map_cons, List.map_nil, hcnt, hcum]
  rfl

/-- **C22: computing a prediction from stored activations changes the first rule:** its activation becomes the number of active
rules. -/
theorem C22_changes_false :
    let S := someSet .regression
    let rules := [voter 0 [1, 1, 0] (.num (.fin 2)), voter 1 [0, 1, 1] (.num (.fin 5))]
    (predictUnstacked S none none rules).2.map (·.act) = [some [1, 2, 1], some [0, 1, 1]] ∧
      rules.map (·.act) = [some [1, 1, 0], some [0, 1, 1]] ∧
      (predictUnstacked S none none rules).1 = .ok [.num (.fin 2), .num (.fin (7 / 2)), .num (.fin 5)] ∧
      (predictUnstacked S none none (predictUnstacked S none none rules).2).1 ≠ (predictUnstacked S none none rules).1 := by
  decide +kernel

/-! ## C23 -/

/-- **C23 (unstacked).** With weights which are not negative, the prediction at a point is the class with the greatest total
weight of active rules, and missing if there is no such class (a shared greatest total, or no active rule with a weight).
Missing: when no rule with a weight is active at any point, it raises (`C23_none_false`). -/
theorem C23_unstacked_partial {S : SetEnv} {w : Weights} {xs : Option Xs} {rules : List Rule} {n : Nat}
    {on : Rule → Nat → Bool} {c : Rule → Label} {wt : Rule → Rat} (hk : S.env.kind = .classification)
    (h : Classifiers S xs rules n on c) (hw : WeightsAre S w rules wt) (hpos : ∀ r ∈ rules, 0 ≤ wt r)
    (hv : ∃ r ∈ rules, wt r ≠ 0 ∧ ∃ i < n, on r i = true) :
    ∃ l, predictUnstacked S (some w) xs rules = (.ok l, rules) ∧ IsVote rules on c wt n l := by
  have hh : heard rules wt on n ≠ [] := by
    obtain ⟨r, hr, h0, i, hi, ho⟩ := hv
    refine List.ne_nil_of_mem (List.mem_filter.2 ⟨hr, ?_⟩)
    simp only [decide_eq_true_eq]
    exact ⟨h0, i, List.mem_range.2 hi, ho⟩
  obtain ⟨ks, h1, h2, h3, h4⟩ := weightedClassifier_eq h hw hh
  refine ⟨(List.range n).map fun i => decideClass (ks.map fun k => (k, .fin (votes rules on c wt k i))), ?_, ?_⟩
  · unfold predictUnstacked
    rw [Py.bind_run]
    simp only [Py.get_run, hk, h4]
    rfl
  · refine ⟨by simp, fun i hi => ?_⟩
    obtain ⟨d1, d2⟩ := decideClass_votes (c := c) hi hpos h1 h2 h3
    constructor
    · intro k hk
      rw [List.getElem?_map, List.getElem?_range hi, Option.map_some, d1 k hk]
    · intro hk
      rw [List.getElem?_map, List.getElem?_range hi, Option.map_some, d2 hk]

/-- **C23 (stacked).** The stacked computation is the unweighted vote of the active rules with the greatest individual weight,
when at least two points are decided.
Missing: the total weights do not matter (`C23_agree_false`); one or no decided point (`C24_stacked_one_false`,
`C24_stacked_none_false`); classes of both types; a class called "nan"; rules with the same condition text. -/
theorem C23_stacked_partial {S : SetEnv} {w : Weights} {xs : Option Xs} {rules : List Rule} {n : Nat}
    {on : Rule → Nat → Bool} {c : Rule → Label} {wt : Rule → Rat} (hk : S.env.kind = .classification)
    (h : Classifiers S xs rules n on c) (hw : WeightsAre S w rules wt) (hd : DifferentNames S rules)
    (hs : SameType (rules.map c)) (hnan : ∀ r ∈ rules, c r ≠ .text "nan") {top : Rule → Nat → Bool}
    (htop : ∀ r ∈ rules, ∀ i < n, top r i = true ↔
      wt r ≠ 0 ∧ on r i = true ∧ ∀ s ∈ rules, wt s ≠ 0 → on s i = true → wt s ≤ wt r)
    {i j : Nat} (hi : i < n) (hj : j < n) (hij : i ≠ j) {a b : Label}
    (ha : Wins rules top c (fun _ => 1) a i) (hb : Wins rules top c (fun _ => 1) b j) :
    ∃ l : List Label, predictStacked S rules (stackOf S rules n on) (some w) = .ok (l.map .label) ∧
      IsVote rules top c (fun _ => 1) n l := by
  have hsame : ∀ i < n, ∀ k, votes rules top c (fun _ => 1) k i = votes rules (heaviest rules wt on) c (fun _ => 1) k i := by
    intro i hi k
    unfold votes
    congr 2
    refine List.filter_congr fun r hr => ?_
    have : top r i = heaviest rules wt on r i := by
      rw [Bool.eq_iff_iff, htop r hr i hi]
      unfold heaviest
      rw [decide_eq_true_eq]
    rw [this]
  have hwin : ∀ i < n, ∀ k, Wins rules top c (fun _ => 1) k i ↔
      Wins (heard rules wt on n) (heaviest rules wt on) c (fun _ => 1) k i := by
    intro i hi k
    rw [wins_heard hi]
    unfold Wins
    simp only [hsame i hi]
  have hc : ∀ r ∈ heard rules wt on n, IsClass (c r) := fun r hr => h.isClass r (heard_mem hr)
  have hh : heard rules wt on n ≠ [] := by
    intro e
    have := ((hwin i hi a).1 ha).1
    rw [e, votes_nil] at this
    exact lt_irrefl _ this
  refine ⟨(List.range n).map fun i => (winner (classRow (heard rules wt on n) (heaviest rules wt on) c i)).getD (.num .nan), ?_, ?_⟩
  · have := predictStacked_heaviest (on := on) hk h.points h.pred h.isClass hs hnan hw hd hh
    rw [stackOf, this, voteRows_wins hc hi hj hij ((hwin i hi a).1 ha) ((hwin j hj b).1 hb), List.map_map]
    rfl
  · refine ⟨by simp, fun i hi => ⟨fun k hk => ?_, fun hk => ?_⟩⟩
    · rw [List.getElem?_map, List.getElem?_range hi, Option.map_some, (winner_wins hc i k).2 ((hwin i hi k).1 hk)]
      rfl
    · rw [List.getElem?_map, List.getElem?_range hi, Option.map_some]
      cases hw : winner (classRow (heard rules wt on n) (heaviest rules wt on) c i) with
      | none => rfl
      | some k => exact absurd ((hwin i hi k).2 ((winner_wins hc i k).1 hw)) (hk k)

/-- Three rules, two classes, four points: one class alone, the heavier class, a shared greatest total, no rule. -/
example :
    let S := someSet .classification
    let rules := [voter 0 [1, 1, 1, 0] (.text "red"), voter 1 [0, 1, 1, 0] (.text "blue"), voter 2 [0, 1, 0, 0] (.text "blue")]
    let w := someWeights 2 2 1
    S.env.kind = .classification ∧ Classifiers S none rules 4 isOn classOf ∧ WeightsAre S w rules (weightIn S w) ∧
      (∀ r ∈ rules, 0 ≤ weightIn S w r) ∧ DifferentNames S rules ∧ SameType (rules.map classOf) ∧
      Wins rules isOn classOf (weightIn S w) (.text "blue") 1 ∧
      (predictUnstacked S (some w) none rules).1 = .ok [.text "red", .text "blue", .num .nan, .num .nan] := by
  refine ⟨rfl, ⟨by decide, ?_, ?_, ?_⟩, ?_, ?_, by unfold DifferentNames; decide +kernel, ?_, ?_, by decide +kernel⟩
  · simp only [List.forall_mem_cons, List.not_mem_nil, false_imp_iff, implies_true, and_true]
    decide +kernel
  · simp only [List.forall_mem_cons, List.not_mem_nil, false_imp_iff, implies_true, and_true]
    decide +kernel
  · simp only [List.forall_mem_cons, List.not_mem_nil, false_imp_iff, implies_true, and_true]
    exact ⟨.inr ⟨_, rfl⟩, .inr ⟨_, rfl⟩, .inr ⟨_, rfl⟩⟩
  · unfold WeightsAre
    simp only [List.forall_mem_cons, List.not_mem_nil, false_imp_iff, implies_true, and_true]
    decide +kernel
  · simp only [List.forall_mem_cons, List.not_mem_nil, false_imp_iff, implies_true, and_true]
    decide +kernel
  · refine .inr ?_
    simp only [List.map_cons, List.map_nil, List.forall_mem_cons, List.not_mem_nil, false_imp_iff, implies_true, and_true]
    exact ⟨⟨_, rfl⟩, ⟨_, rfl⟩, ⟨_, rfl⟩⟩
  · refine ⟨by decide +kernel, fun k' hk' => ?_⟩
    have h3 : votes [voter 0 [1, 1, 1, 0] (.text "red"), voter 1 [0, 1, 1, 0] (.text "blue"), voter 2 [0, 1, 0, 0] (.text "blue")]
        isOn classOf (weightIn (someSet .classification) (someWeights 2 2 1)) (.text "blue") 1 = 3 := by decide +kernel
    rw [h3]
    rw [votes_cons, votes_cons, votes_cons, votes_nil]
    have hb : ∀ v lo, classOf (voter lo v (.text "blue")) = .text "blue" := fun _ _ => rfl
    rw [hb, hb, if_neg (c := _ ∧ Label.text "blue" = k') (fun h => hk' h.2.symm),
      if_neg (c := _ ∧ Label.text "blue" = k') (fun h => hk' h.2.symm)]
    have hw : weightIn (someSet .classification) (someWeights 2 2 1) (voter 0 [1, 1, 1, 0] (.text "red")) = 2 := by decide +kernel
    rw [hw]
    split <;> norm_num

/-- Two of these points are decided by the heaviest rules. -/
example :
    let S := someSet .classification
    let rules := [voter 0 [1, 1, 0] (.text "red"), voter 1 [0, 1, 1] (.text "blue")]
    predictStacked S rules (stackOf S rules 3 isOn) (some (someWeights 2 1 0)) =
      .ok [.label (.text "red"), .label (.text "red"), .label (.text "blue")] := by
  decide +kernel

/-- **C23: the stacked and the unstacked computation disagree.**  One rule of class A with the weight 3 against two rules of class
B with the weight 2 each: the unstacked computation gives B, the stacked one gives A. -/
theorem C23_agree_false :
    let S := someSet .classification
    let rules := [voter 0 [1, 1] (.text "A"), voter 1 [1, 1] (.text "B"), voter 2 [1, 1] (.text "B")]
    let w := someWeights 3 2 2
    (predictUnstacked S (some w) none rules).1 = .ok [.text "B", .text "B"] ∧
      predictStacked S rules (stackOf S rules 2 isOn) (some w) = .ok [.label (.text "A"), .label (.text "A")] := by
  decide +kernel

/-- **C23: when no rule is active at any point, the prediction is not missing but raises.** -/
theorem C23_none_false :
    let S := someSet .classification
    let rules := [voter 0 [0, 0] (.text "A")]
    let w := someWeights 1 0 0
    (predictUnstacked S (some w) none rules).1 = .error .valueError ∧
      predictStacked S rules (stackOf S rules 2 isOn) (some w) = .error .valueError := by
  decide +kernel

/-! ## C24 -/

/-- **C24 (unstacked).** Without weights, the prediction at a point is the class predicted by most active rules, missing in case
of a tie or without active rule.
Missing: when no rule is active at any point, it raises (`C24_none_false`). -/
theorem C24_unstacked_partial {S : SetEnv} {xs : Option Xs} {rules : List Rule} {n : Nat}
    {on : Rule → Nat → Bool} {c : Rule → Label} (hk : S.env.kind = .classification)
    (h : Classifiers S xs rules n on c) (hv : ∃ r ∈ rules, ∃ i < n, on r i = true) :
    ∃ l, predictUnstacked S none xs rules = (.ok l, rules) ∧ IsVote rules on c (fun _ => 1) n l := by
  have hw : WeightsAre S (fun n => if rules.any (fun r => decide (S.condStr r.cond = n)) then some (.fin 1) else none) rules
      (fun _ => 1) := by
    intro r hr
    refine .inl ?_
    simp only
    rw [if_pos]
    rw [List.any_eq_true]
    exact ⟨r, hr, by simp⟩
  obtain ⟨l, h1, h2⟩ := C23_unstacked_partial hk h hw (fun _ _ => zero_le_one)
    (by obtain ⟨r, hr, hx⟩ := hv; exact ⟨r, hr, one_ne_zero, hx⟩)
  refine ⟨l, ?_, h2⟩
  rw [← h1]
  unfold predictUnstacked
  rw [Py.bind_run, Py.bind_run]
  simp only [Py.get_run, hk]
  rfl

/-- **C24 (stacked).** The same for the stacked computation, when at least two points are decided.
Missing: one or no decided point (`C24_stacked_one_false`, `C24_stacked_none_false`); classes of both types; a class called
"nan" (`C24_nan_false`); rules with the same condition text. -/
theorem C24_stacked_partial {S : SetEnv} {xs : Option Xs} {rules : List Rule} {n : Nat}
    {on : Rule → Nat → Bool} {c : Rule → Label} (hk : S.env.kind = .classification)
    (h : Classifiers S xs rules n on c) (hd : DifferentNames S rules) (hs : SameType (rules.map c))
    (hnan : ∀ r ∈ rules, c r ≠ .text "nan") {i j : Nat} (hi : i < n) (hj : j < n) (hij : i ≠ j) {a b : Label}
    (ha : Wins rules on c (fun _ => 1) a i) (hb : Wins rules on c (fun _ => 1) b j) :
    ∃ l : List Label, predictStacked S rules (stackOf S rules n on) none = .ok (l.map .label) ∧
      IsVote rules on c (fun _ => 1) n l := by
  have hne : rules ≠ [] := by
    rintro rfl
    exact lt_irrefl _ ha.1
  refine ⟨(List.range n).map fun i => (winner (classRow rules on c i)).getD (.num .nan), ?_, ?_⟩
  · rw [stackOf, predictStacked_vote hk h.points hne h.pred h.isClass hs hnan hd, voteRows_wins h.isClass hi hj hij ha hb, List.map_map]
    rfl
  · refine ⟨by simp, fun i hi => ⟨fun k hk => ?_, fun hk => ?_⟩⟩
    · rw [List.getElem?_map, List.getElem?_range hi, Option.map_some, (winner_wins h.isClass i k).2 hk]
      rfl
    · rw [List.getElem?_map, List.getElem?_range hi, Option.map_some]
      cases hw : winner (classRow rules on c i) with
      | none => rfl
      | some k => exact absurd ((winner_wins h.isClass i k).1 hw) (hk k)

/-- Two decided points of three, one tie. -/
example :
    let S := someSet .classification
    let rules := [voter 0 [1, 1, 1] (.text "red"), voter 1 [0, 1, 1] (.text "blue"), voter 2 [0, 0, 1] (.text "blue")]
    (predictUnstacked S none none rules).1 = .ok [.text "red", .num .nan, .text "blue"] ∧
      predictStacked S rules (stackOf S rules 3 isOn) none =
        .ok [.label (.text "red"), .label (.num .nan), .label (.text "blue")] := by
  decide +kernel

/-- **C24 is false of the stacked computation when exactly one point is decided:** for any rules, the class goes to the first
point. -/
theorem C24_stacked_one_false {S : SetEnv} {xs : Option Xs} {rules : List Rule} {n : Nat}
    {on : Rule → Nat → Bool} {c : Rule → Label} (hk : S.env.kind = .classification)
    (h : Classifiers S xs rules n on c) (hd : DifferentNames S rules) (hs : SameType (rules.map c))
    (hnan : ∀ r ∈ rules, c r ≠ .text "nan") {i : Nat} (hi : i < n) {a : Label}
    (ha : Wins rules on c (fun _ => 1) a i) (ho : ∀ j < n, j ≠ i → ∀ b, ¬ Wins rules on c (fun _ => 1) b j) :
    predictStacked S rules (stackOf S rules n on) none =
      .ok ((List.range n).map fun j => .label (if j = 0 then a else .num .nan)) := by
  have hne : rules ≠ [] := by
    rintro rfl
    exact lt_irrefl _ ha.1
  rw [stackOf, predictStacked_vote hk h.points hne h.pred h.isClass hs hnan hd, voteRows_one h.isClass hi ha ho]

/-- The rule is active at the second point only, its class is predicted at the first point only. -/
example :
    let S := someSet .classification
    let rules := [voter 0 [0, 1] (.text "red")]
    (predictUnstacked S none none rules).1 = .ok [.num .nan, .text "red"] ∧
      predictStacked S rules (stackOf S rules 2 isOn) none = .ok [.label (.text "red"), .label (.num .nan)] := by
  decide +kernel

/-- **C24 is false of the stacked computation when no point is decided:** for any rules, the first entry is a table. -/
theorem C24_stacked_none_false {S : SetEnv} {xs : Option Xs} {rules : List Rule} {n : Nat}
    {on : Rule → Nat → Bool} {c : Rule → Label} (hk : S.env.kind = .classification) (hne : rules ≠ [])
    (h : Classifiers S xs rules n on c) (hd : DifferentNames S rules) (hs : SameType (rules.map c))
    (hnan : ∀ r ∈ rules, c r ≠ .text "nan") (ho : ∀ j < n, ∀ b, ¬ Wins rules on c (fun _ => 1) b j) :
    predictStacked S rules (stackOf S rules n on) none =
      .ok ((List.range n).map fun j => if j = 0 then .frame else .label (.num .nan)) := by
  rw [stackOf, predictStacked_vote hk h.points hne h.pred h.isClass hs hnan hd, voteRows_zero h.isClass ho]

/-- A tie at the only point -/
example :
    let S := someSet .classification
    let rules := [voter 0 [1] (.text "red"), voter 1 [1] (.text "blue")]
    (predictUnstacked S none none rules).1 = .ok [.num .nan] ∧
      predictStacked S rules (stackOf S rules 1 isOn) none = .ok [.frame] := by
  decide +kernel

/-- **C24: when no rule is active at any point, the unstacked computation raises.** -/
theorem C24_none_false :
    (predictUnstacked (someSet .classification) none none [voter 0 [0, 0] (.text "A")]).1 = .error .valueError := by
  decide +kernel

/-- **C24: a class called "nan" is taken for missing** by the stacked computation. -/
theorem C24_nan_false :
    let S := someSet .classification
    let rules := [voter 0 [1, 1, 1] (.text "nan"), voter 1 [1, 1, 0] (.text "nan"), voter 2 [1, 1, 0] (.text "a")]
    (predictUnstacked S none none rules).1 = .ok [.text "nan", .text "nan", .text "nan"] ∧
      predictStacked S rules (stackOf S rules 3 isOn) none =
        .ok [.label (.text "a"), .label (.text "a"), .label (.num .nan)] := by
  decide +kernel

end Verif.VoteProps
