import Verif.PredictLemmas

/-!
# Properties of `RuleSet.predict`

The predictions of a ruleset are those of the functions of `Vote`, for the features, the weights and the settings of the ruleset.
-/

namespace Verif.RuleSetProps

open Verif Spec Vote RuleSet

/-- The rules of a ruleset -/
abbrev rulesOf (s : RuleSet) : List Rule := s.rules.map (·.rule)

/-- **C21 (`predict`).**  For a ruleset of regression rules, `predict(xs, weights)` gives at each point the weighted mean of the
predictions of the rules active there for the features given (for the remembered activations if none are given), and leaves the
ruleset unchanged.  Weights: a Series, or the name of an attribute.
Missing: as for `C21_unstacked_partial`. -/
theorem C21_predict_partial {R : RsEnv} {s : RuleSet} {xs : Option Xs} {w : WeightsArg} {n : Nat} {on : Rule → Nat → Bool}
    {p wt : Rule → Rat} (hk : s.ruleType = some .regression) (hu : R.stackedFit = false ∨ s.stacked = none)
    (h : Regressors (voteEnv R .regression) xs (rulesOf s) n on p) (hw : WeightsGiven (voteEnv R .regression) (rulesOf s) wt w)
    (hpos : ∀ r ∈ rulesOf s, 0 ≤ wt r) (hv : ∃ r ∈ rulesOf s, wt r ≠ 0)
    (hs : (voters (rulesOf s) wt).length = 1 ∨
      ((∀ i < n, activeSum (rulesOf s) on wt i ≠ 0 → activeSum (rulesOf s) on (fun r => p r * wt r) i ≠ 0) ∧
        ∀ r rest, voters (rulesOf s) wt = r :: rest → p r ≠ 0)) :
    ∃ l : List Num, predict R xs (some w) s = (.ok (l.map fun x => .label (.num x)), s) ∧ l.length = n ∧
      ∀ i < n, ∃ x, l[i]? = some x ∧ IsWeightedMean (rulesOf s) on p wt i x := by
  obtain ⟨w', h1, h2⟩ := weightsOf_given hw
  obtain ⟨l, h3, h4, h5⟩ := VoteProps.C21_unstacked_partial rfl h h2 hpos hv hs
  have hne : s.rules ≠ [] := by
    obtain ⟨r, hr, -⟩ := hv
    intro e
    simp [rulesOf, e] at hr
  refine ⟨l, ?_, h4, h5⟩
  rw [predict_unstacked hne hk hu h1 h3, List.map_map]
  rfl

/-- **C21 (`predict` with stacked activations).**  The same when `STACKED_FIT` is set and activations are stacked; without features,
the stacked activations are supposed to be those of the rules (C25). -/
theorem C21_predict_stacked_partial {R : RsEnv} {s : RuleSet} {xs : Option Xs} {w : WeightsArg} {n : Nat} {on : Rule → Nat → Bool}
    {p wt : Rule → Rat} {c : Columns Nat} (hk : s.ruleType = some .regression) (hkind : ∀ m ∈ s.rules, m.kind = .regression)
    (hu : R.stackedFit = true) (hc : s.stacked = some c) (hx : xs = none → c = stackOf (voteEnv R .regression) (rulesOf s) n on)
    (h : Regressors (voteEnv R .regression) xs (rulesOf s) n on p) (hw : WeightsGiven (voteEnv R .regression) (rulesOf s) wt w)
    (hpos : ∀ r ∈ rulesOf s, 0 ≤ wt r) (hd : DifferentNames (voteEnv R .regression) (rulesOf s))
    (hv : ∃ r ∈ rulesOf s, wt r ≠ 0 ∧ ∃ i < n, on r i = true) :
    ∃ l : List Num, predict R xs (some w) s = (.ok (l.map fun x => .label (.num x)), s) ∧ l.length = n ∧
      ∀ i < n, ∃ x, l[i]? = some x ∧ IsWeightedMean (rulesOf s) on p wt i x := by
  obtain ⟨w', h1, h2⟩ := weightsOf_given hw
  obtain ⟨l, h3, h4, h5⟩ := VoteProps.C21_stacked_partial rfl h h2 hpos hd hv
  have hne : s.rules ≠ [] := by
    obtain ⟨r, hr, -⟩ := hv
    intro e
    simp [rulesOf, e] at hr
  exact ⟨l, predict_stacked hne hk hu hc (stackFor_eq hkind hne hd hx h.act) h1 h3, h4, h5⟩

/-- **C22 (`predict`).**  Without weights, the plain mean.
Missing: as for `C22_unstacked_partial`. -/
theorem C22_predict_partial {R : RsEnv} {s : RuleSet} {xs : Option Xs} {n : Nat} {on : Rule → Nat → Bool} {p : Rule → Rat}
    (hk : s.ruleType = some .regression) (hu : R.stackedFit = false ∨ s.stacked = none) (hne : s.rules ≠ [])
    (h : Regressors (voteEnv R .regression) xs (rulesOf s) n on p)
    (hs : s.rules.length = 1 ∨ ((∀ i < n, activeCount (rulesOf s) on i ≠ 0 → activeSum (rulesOf s) on p i ≠ 0) ∧
      ∀ r rest, rulesOf s = r :: rest → p r ≠ 0)) (hc : ∀ i < n, activeCount (rulesOf s) on i < 256)
    (ha : s.rules.length = 1 ∨ xs ≠ none ∨ ∀ r rest, rulesOf s = r :: rest → R.storedRaw r = false) :
    ∃ l : List Num, predict R xs none s = (.ok (l.map fun x => .label (.num x)), s) ∧ l.length = n ∧
      ∀ i < n, ∃ x, l[i]? = some x ∧ IsMean (rulesOf s) on p i x := by
  have hlen : (rulesOf s).length = s.rules.length := List.length_map _
  obtain ⟨⟨l, h3, h4, h5⟩, h6⟩ := VoteProps.C22_unstacked_partial (S := voteEnv R .regression) rfl h
    (by simpa [rulesOf] using hne) (by rw [hlen]; exact hs) hc
  have h6 := h6 (by rw [hlen]; exact ha)
  refine ⟨l, ?_, h4, h5⟩
  rw [predict_unstacked (w' := none) (l := l.map .num) hne hk hu rfl (by rw [← h3]; exact Prod.ext rfl h6), List.map_map]
  rfl

/-- **C22 (`predict` with stacked activations).** -/
theorem C22_predict_stacked_partial {R : RsEnv} {s : RuleSet} {xs : Option Xs} {n : Nat} {on : Rule → Nat → Bool} {p : Rule → Rat}
    {c : Columns Nat} (hk : s.ruleType = some .regression) (hkind : ∀ m ∈ s.rules, m.kind = .regression)
    (hu : R.stackedFit = true) (hc : s.stacked = some c) (hx : xs = none → c = stackOf (voteEnv R .regression) (rulesOf s) n on)
    (hne : s.rules ≠ []) (h : Regressors (voteEnv R .regression) xs (rulesOf s) n on p)
    (hd : DifferentNames (voteEnv R .regression) (rulesOf s)) :
    ∃ l : List Num, predict R xs none s = (.ok (l.map fun x => .label (.num x)), s) ∧ l.length = n ∧
      ∀ i < n, ∃ x, l[i]? = some x ∧ IsMean (rulesOf s) on p i x := by
  obtain ⟨l, h3, h4, h5⟩ := VoteProps.C22_stacked rfl h (by simpa [rulesOf] using hne) hd
  exact ⟨l, predict_stacked hne hk hu hc (stackFor_eq hkind hne hd hx h.act) rfl h3, h4, h5⟩

/-- **C23 (`predict`).**  For a ruleset of classification rules, `predict(xs, weights)` gives at each point the class with the greatest
total weight, missing if there is none.
Missing: as for `C23_unstacked_partial`; with stacked activations see `C23_predict_stacked_partial` and `C23_agree_false`. -/
theorem C23_predict_partial {R : RsEnv} {s : RuleSet} {xs : Option Xs} {w : WeightsArg} {n : Nat} {on : Rule → Nat → Bool}
    {c : Rule → Label} {wt : Rule → Rat} (hk : s.ruleType = some .classification) (hu : R.stackedFit = false ∨ s.stacked = none)
    (h : Classifiers (voteEnv R .classification) xs (rulesOf s) n on c)
    (hw : WeightsGiven (voteEnv R .classification) (rulesOf s) wt w) (hpos : ∀ r ∈ rulesOf s, 0 ≤ wt r)
    (hv : ∃ r ∈ rulesOf s, wt r ≠ 0 ∧ ∃ i < n, on r i = true) :
    ∃ l : List Label, predict R xs (some w) s = (.ok (l.map .label), s) ∧ IsVote (rulesOf s) on c wt n l := by
  obtain ⟨w', h1, h2⟩ := weightsOf_given hw
  obtain ⟨l, h3, h4⟩ := VoteProps.C23_unstacked_partial rfl h h2 hpos hv
  have hne : s.rules ≠ [] := by
    obtain ⟨r, hr, -⟩ := hv
    intro e
    simp [rulesOf, e] at hr
  exact ⟨l, predict_unstacked hne hk hu h1 h3, h4⟩

/-- **C23 (`predict` with stacked activations).**  With stacked activations it gives the class which most of the heaviest active rules
predict, when at least two points are decided.
Missing: as for `C23_stacked_partial`. -/
theorem C23_predict_stacked_partial {R : RsEnv} {s : RuleSet} {xs : Option Xs} {w : WeightsArg} {n : Nat} {on : Rule → Nat → Bool}
    {c : Rule → Label} {wt : Rule → Rat} {cols : Columns Nat} (hk : s.ruleType = some .classification)
    (hkind : ∀ m ∈ s.rules, m.kind = .classification) (hu : R.stackedFit = true) (hc : s.stacked = some cols)
    (hx : xs = none → cols = stackOf (voteEnv R .classification) (rulesOf s) n on)
    (h : Classifiers (voteEnv R .classification) xs (rulesOf s) n on c)
    (hw : WeightsGiven (voteEnv R .classification) (rulesOf s) wt w) (hd : DifferentNames (voteEnv R .classification) (rulesOf s))
    (hs : SameType ((rulesOf s).map c)) (hnan : ∀ r ∈ rulesOf s, c r ≠ .text "nan") {top : Rule → Nat → Bool}
    (htop : ∀ r ∈ rulesOf s, ∀ i < n, top r i = true ↔
      wt r ≠ 0 ∧ on r i = true ∧ ∀ r' ∈ rulesOf s, wt r' ≠ 0 → on r' i = true → wt r' ≤ wt r)
    {i j : Nat} (hi : i < n) (hj : j < n) (hij : i ≠ j) {a b : Label} (ha : Wins (rulesOf s) top c (fun _ => 1) a i)
    (hb : Wins (rulesOf s) top c (fun _ => 1) b j) :
    ∃ l : List Label, predict R xs (some w) s = (.ok (l.map .label), s) ∧ IsVote (rulesOf s) top c (fun _ => 1) n l := by
  obtain ⟨w', h1, h2⟩ := weightsOf_given hw
  obtain ⟨l, h3, h4⟩ := VoteProps.C23_stacked_partial rfl h h2 hd hs hnan htop hi hj hij ha hb
  have hne : s.rules ≠ [] := by
    intro e
    have := ha.1
    simp [rulesOf, e, votes] at this
  exact ⟨l, predict_stacked hne hk hu hc (stackFor_eq hkind hne hd hx h.act) h1 h3, h4⟩

/-- **C24 (`predict`).**  Without weights, the class which most active rules predict.
Missing: as for `C24_unstacked_partial`. -/
theorem C24_predict_partial {R : RsEnv} {s : RuleSet} {xs : Option Xs} {n : Nat} {on : Rule → Nat → Bool} {c : Rule → Label}
    (hk : s.ruleType = some .classification) (hu : R.stackedFit = false ∨ s.stacked = none)
    (h : Classifiers (voteEnv R .classification) xs (rulesOf s) n on c) (hv : ∃ r ∈ rulesOf s, ∃ i < n, on r i = true) :
    ∃ l : List Label, predict R xs none s = (.ok (l.map .label), s) ∧ IsVote (rulesOf s) on c (fun _ => 1) n l := by
  obtain ⟨l, h3, h4⟩ := VoteProps.C24_unstacked_partial rfl h hv
  have hne : s.rules ≠ [] := by
    obtain ⟨r, hr, -⟩ := hv
    intro e
    simp [rulesOf, e] at hr
  exact ⟨l, predict_unstacked (w' := none) hne hk hu rfl h3, h4⟩

/-- **C24 (`predict` with stacked activations)**, when at least two points are decided.
Missing: as for `C24_stacked_partial`. -/
theorem C24_predict_stacked_partial {R : RsEnv} {s : RuleSet} {xs : Option Xs} {n : Nat} {on : Rule → Nat → Bool} {c : Rule → Label}
    {cols : Columns Nat} (hk : s.ruleType = some .classification) (hkind : ∀ m ∈ s.rules, m.kind = .classification)
    (hu : R.stackedFit = true) (hc : s.stacked = some cols)
    (hx : xs = none → cols = stackOf (voteEnv R .classification) (rulesOf s) n on)
    (h : Classifiers (voteEnv R .classification) xs (rulesOf s) n on c) (hd : DifferentNames (voteEnv R .classification) (rulesOf s))
    (hs : SameType ((rulesOf s).map c)) (hnan : ∀ r ∈ rulesOf s, c r ≠ .text "nan") {i j : Nat} (hi : i < n) (hj : j < n)
    (hij : i ≠ j) {a b : Label} (ha : Wins (rulesOf s) on c (fun _ => 1) a i) (hb : Wins (rulesOf s) on c (fun _ => 1) b j) :
    ∃ l : List Label, predict R xs none s = (.ok (l.map .label), s) ∧ IsVote (rulesOf s) on c (fun _ => 1) n l := by
  obtain ⟨l, h3, h4⟩ := VoteProps.C24_stacked_partial rfl h hd hs hnan hi hj hij ha hb
  have hne : s.rules ≠ [] := by
    intro e
    have := ha.1
    simp [rulesOf, e, votes] at this
  exact ⟨l, predict_stacked hne hk hu hc (stackFor_eq hkind hne hd hx h.act) rfl h3, h4⟩

/-- A ruleset with these rules -/
def setWith (k : Kind) (rules : List Rule) : RuleSet := { RuleSet.blank true with rules := rules.map fun r => ⟨k, r⟩, ruleType := some k }

/-- Weighted and plain means and votes with remembered activations -/
example :
    (predict someRs none (some (.series (VoteProps.someWeights 1 3 0))) (setWith .regression
      [VoteProps.voter 0 [1, 1, 0] (.num (.fin 2)), VoteProps.voter 1 [0, 1, 0] (.num (.fin 5)),
       VoteProps.voter 2 [1, 1, 1] (.num (.fin 7))])).1 =
      .ok [.label (.num (.fin 2)), .label (.num (.fin (17 / 4))), .label (.num .nan)] ∧
    (predict someRs none none (setWith .regression
      [VoteProps.voter 0 [1, 1, 0] (.num (.fin 2)), VoteProps.voter 1 [0, 1, 0] (.num (.fin 5))])).1 =
      .ok [.label (.num (.fin 2)), .label (.num (.fin (7 / 2))), .label (.num .nan)] ∧
    (predict someRs none none (setWith .classification
      [VoteProps.voter 0 [1, 1, 1] (.text "red"), VoteProps.voter 1 [0, 1, 1] (.text "blue"),
       VoteProps.voter 2 [0, 0, 1] (.text "blue")])).1 =
      .ok [.label (.text "red"), .label (.num .nan), .label (.text "blue")] := by
  decide +kernel

/-- The hypotheses of `C22_predict_partial`: one rule, the others of the same kind are in the examples on `Regressors` -/
example : ∃ l : List Num, predict someRs none none (setWith .regression [VoteProps.voter 0 [1, 1, 0] (.num (.fin 2))]) =
    (.ok (l.map fun x => .label (.num x)), setWith .regression [VoteProps.voter 0 [1, 1, 0] (.num (.fin 2))]) ∧ l.length = 3 :=
  let ⟨l, h1, h2, _⟩ := C22_predict_partial (R := someRs) (xs := none) (n := 3) (on := VoteProps.isOn) (p := VoteProps.number)
    (s := setWith .regression [VoteProps.voter 0 [1, 1, 0] (.num (.fin 2))]) rfl (Or.inl rfl) (List.cons_ne_nil _ _)
    (by
      refine ⟨by decide, ?_, ?_, ?_⟩ <;>
      · simp only [rulesOf, setWith, List.map_cons, List.map_nil, List.forall_mem_cons, List.not_mem_nil, false_imp_iff, implies_true,
          and_true]
        decide +kernel)
    (Or.inl rfl) (by decide +kernel) (Or.inl rfl)
  ⟨l, h1, h2⟩

/-- The features given decide, not the remembered activation: the rule is active for values between 0 and 9. -/
example : (predict someRs (some (.arr ⟨1, [[.fin 10], [.fin 1]]⟩)) none (setWith .regression [VoteProps.voter 0 [1, 1, 0] (.num (.fin 2))])).1 =
    .ok [.label (.num .nan), .label (.num (.fin 2))] ∧
    (predict { someRs with stackedFit := true } (some (.arr ⟨1, [[.fin 10], [.fin 1]]⟩)) none
      { setWith .regression [VoteProps.voter 0 [1, 1, 0] (.num (.fin 2))] with stacked := some [("a", [1, 1, 0])] }).1 =
      .ok [.label (.num .nan), .label (.num (.fin 2))] := by
  decide +kernel

end Verif.RuleSetProps
