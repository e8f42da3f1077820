import Verif.ActiveLemmas
import Verif.SortProps

/-!
# C75: the prediction at a point depends on the rules active there only
-/

namespace Verif.ActiveProps

open Spec Vote RuleSet RuleSetProps
open VoteProps (voter someWeights isOn number classOf weightIn)

/-- **C75 (weighted means).**  Two rulesets of regression rules which have the same active rules at a point, in whatever order and
whatever their other rules, predict the same there with the same weights.
Missing: sums which are zero (`C75_zero_false`). -/
theorem C75_weighted_means_partial {R : RsEnv} {xs : Option Xs} {w : WeightsArg} {n : Nat} {on : Rule → Nat → Bool} {p wt : Rule → Rat}
    {s s' : RuleSet} (h : WeightedMeans R xs w n on p wt s) (h' : WeightedMeans R xs w n on p wt s') :
    ∃ l l', predict R xs (some w) s = (.ok l, s) ∧ predict R xs (some w) s' = (.ok l', s') ∧ l.length = n ∧ l'.length = n ∧
      ∀ i, SameVoters on i (rulesOf s) (rulesOf s') → l[i]? = l'[i]? := by
  obtain ⟨l, e, hn, hl⟩ := Active.predict_weightedMeans h
  obtain ⟨l', e', hn', hl'⟩ := Active.predict_weightedMeans h'
  refine ⟨_, _, e, e', by simp [hn], by simp [hn'], fun i ha => ?_⟩
  rw [List.getElem?_map, List.getElem?_map]
  by_cases hi : i < n
  · obtain ⟨x, hx, hm⟩ := hl i hi
    obtain ⟨x', hx', hm'⟩ := hl' i hi
    rw [hx, hx', Active.mean_same ha hm hm']
  · rw [List.getElem?_eq_none (by omega), List.getElem?_eq_none (by omega)]

/-- **C75 (plain means).**  So do they without weights.
Missing: sums which are zero (`C75_zero_false`), and what C22 says of more than 255 active rules. -/
theorem C75_means_partial {R : RsEnv} {xs : Option Xs} {n : Nat} {on : Rule → Nat → Bool} {p : Rule → Rat} {s s' : RuleSet}
    (h : PlainMeans R xs n on p s) (h' : PlainMeans R xs n on p s') :
    ∃ l l', predict R xs none s = (.ok l, s) ∧ predict R xs none s' = (.ok l', s') ∧ l.length = n ∧ l'.length = n ∧
      ∀ i, SameVoters on i (rulesOf s) (rulesOf s') → l[i]? = l'[i]? := by
  obtain ⟨l, e, hn, hl⟩ := Active.predict_plainMeans h
  obtain ⟨l', e', hn', hl'⟩ := Active.predict_plainMeans h'
  refine ⟨_, _, e, e', by simp [hn], by simp [hn'], fun i ha => ?_⟩
  rw [List.getElem?_map, List.getElem?_map]
  by_cases hi : i < n
  · obtain ⟨x, hx, hm⟩ := hl i hi
    obtain ⟨x', hx', hm'⟩ := hl' i hi
    rw [hx, hx', Active.plainMean_same ha hm hm']
  · rw [List.getElem?_eq_none (by omega), List.getElem?_eq_none (by omega)]

/-- **C75 (votes with weights).**  So do rulesets of classification rules, with weights.
Missing: weights which are negative, and rulesets without an active rule which has a weight, which raise (`C23_none_false`); for
stacked activations see `C75_weighted_votes_stacked_partial`. -/
theorem C75_weighted_votes_partial {R : RsEnv} {xs : Option Xs} {w : WeightsArg} {n : Nat} {on : Rule → Nat → Bool} {c : Rule → Label}
    {wt : Rule → Rat} {s s' : RuleSet} (h : WeightedVotes R xs w n on c wt s) (h' : WeightedVotes R xs w n on c wt s') :
    ∃ l l', predict R xs (some w) s = (.ok l, s) ∧ predict R xs (some w) s' = (.ok l', s') ∧ l.length = n ∧ l'.length = n ∧
      ∀ i, SameVoters on i (rulesOf s) (rulesOf s') → l[i]? = l'[i]? := by
  obtain ⟨l, e, hl⟩ := Active.predict_weightedVotes h
  obtain ⟨l', e', hl'⟩ := Active.predict_weightedVotes h'
  refine ⟨_, _, e, e', by simp [hl.1], by simp [hl'.1], fun i ha => ?_⟩
  rw [List.getElem?_map, List.getElem?_map]
  by_cases hi : i < n
  · rw [Active.vote_same ha hi hl hl']
  · rw [List.getElem?_eq_none (by have := hl.1; omega), List.getElem?_eq_none (by have := hl'.1; omega)]

/-- **C75 (votes with weights and stacked activations).**  So do they with stacked activations, where only the heaviest rules count.
Missing: fewer than two decided points (`C75_stacked_false`). -/
theorem C75_weighted_votes_stacked_partial {R : RsEnv} {xs : Option Xs} {w : WeightsArg} {n : Nat} {on : Rule → Nat → Bool}
    {c : Rule → Label} {wt : Rule → Rat} {top top' : Rule → Nat → Bool} {s s' : RuleSet} (h : StackedVotes R xs w n on c wt top s)
    (h' : StackedVotes R xs w n on c wt top' s') :
    ∃ l l', predict R xs (some w) s = (.ok l, s) ∧ predict R xs (some w) s' = (.ok l', s') ∧ l.length = n ∧ l'.length = n ∧
      ∀ i, SameVoters on i (rulesOf s) (rulesOf s') → l[i]? = l'[i]? := by
  obtain ⟨l, e, hl⟩ := Active.predict_stackedVotes h
  obtain ⟨l', e', hl'⟩ := Active.predict_stackedVotes h'
  refine ⟨_, _, e, e', by simp [hl.1], by simp [hl'.1], fun i ha => ?_⟩
  rw [List.getElem?_map, List.getElem?_map]
  by_cases hi : i < n
  · rw [Active.vote_eq (Active.heaviest_same ha (fun r hr => h.heaviest r hr i hi) (fun r hr => h'.heaviest r hr i hi) c) hi hl hl']
  · rw [List.getElem?_eq_none (by have := hl.1; omega), List.getElem?_eq_none (by have := hl'.1; omega)]

/-- **C75 (votes without weights).**
Missing: stacked activations with fewer than two decided points (`C75_stacked_false`). -/
theorem C75_votes_partial {R : RsEnv} {xs : Option Xs} {n : Nat} {on : Rule → Nat → Bool} {c : Rule → Label} {s s' : RuleSet}
    (h : PlainVotes R xs n on c s) (h' : PlainVotes R xs n on c s') :
    ∃ l l', predict R xs none s = (.ok l, s) ∧ predict R xs none s' = (.ok l', s') ∧ l.length = n ∧ l'.length = n ∧
      ∀ i, SameVoters on i (rulesOf s) (rulesOf s') → l[i]? = l'[i]? := by
  obtain ⟨l, e, hl⟩ := Active.predict_plainVotes h
  obtain ⟨l', e', hl'⟩ := Active.predict_plainVotes h'
  refine ⟨_, _, e, e', by simp [hl.1], by simp [hl'.1], fun i ha => ?_⟩
  rw [List.getElem?_map, List.getElem?_map]
  by_cases hi : i < n
  · rw [Active.vote_same ha hi hl hl']
  · rw [List.getElem?_eq_none (by have := hl.1; omega), List.getElem?_eq_none (by have := hl'.1; omega)]

/-- **C75 (sorting).**  Sorting a ruleset of classification rules whose activations are not stacked, with or without criterion,
whether it raises or not, does not change what the ruleset predicts. -/
theorem C75_sort_votes {R : RsEnv} {xs : Option Xs} {n : Nat} {on : Rule → Nat → Bool} {c : Rule → Label} {s : RuleSet}
    (hk : s.ruleType = some .classification) (hu : R.stackedFit = false)
    (hr : Classifiers (voteEnv R .classification) xs (rulesOf s) n on c) (hv : ∃ r ∈ rulesOf s, ∃ i < n, on r i = true)
    (cr : Option String) (reverse : Bool) :
    ∃ l, predict R xs none s = (.ok l, s) ∧ predict R xs none (sort R cr reverse s).2 = (.ok l, (sort R cr reverse s).2) := by
  obtain ⟨hp, hs, -⟩ := C27_same_rules R cr reverse s
  have hp' : (rulesOf (sort R cr reverse s).2).Perm (rulesOf s) := hp.map _
  have hk' : (sort R cr reverse s).2.ruleType = some .classification := by rw [hs]; exact hk
  have hr' : Classifiers (voteEnv R .classification) xs (rulesOf (sort R cr reverse s).2) n on c :=
    ⟨hr.points, fun r h => hr.act r (hp'.mem_iff.1 h), fun r h => hr.pred r (hp'.mem_iff.1 h), fun r h => hr.isClass r (hp'.mem_iff.1 h)⟩
  have hv' : ∃ r ∈ rulesOf (sort R cr reverse s).2, ∃ i < n, on r i = true := by
    obtain ⟨r, h, ho⟩ := hv
    exact ⟨r, hp'.mem_iff.2 h, ho⟩
  obtain ⟨l, l', e, e', -, -, h⟩ := C75_votes_partial ⟨hk, hr, .inl ⟨.inl hu, hv⟩⟩ ⟨hk', hr', .inl ⟨.inl hu, hv'⟩⟩
  refine ⟨l, e, ?_⟩
  rw [e', List.ext_getElem? fun i => h i (Active.sameActive_perm on i hp'.symm)]

/-- **C75 (sorting, weighted votes).** -/
theorem C75_sort_weighted_votes {R : RsEnv} {xs : Option Xs} {w : Weights} {n : Nat} {on : Rule → Nat → Bool} {c : Rule → Label}
    {wt : Rule → Rat} {s : RuleSet} (hk : s.ruleType = some .classification) (hu : R.stackedFit = false)
    (hr : Classifiers (voteEnv R .classification) xs (rulesOf s) n on c) (hw : WeightsAre (voteEnv R .classification) w (rulesOf s) wt)
    (hpos : ∀ r ∈ rulesOf s, 0 ≤ wt r) (hv : ∃ r ∈ rulesOf s, wt r ≠ 0 ∧ ∃ i < n, on r i = true)
    (cr : Option String) (reverse : Bool) :
    ∃ l, predict R xs (some (.series w)) s = (.ok l, s) ∧
      predict R xs (some (.series w)) (sort R cr reverse s).2 = (.ok l, (sort R cr reverse s).2) := by
  obtain ⟨hp, hs, -⟩ := C27_same_rules R cr reverse s
  have hp' : (rulesOf (sort R cr reverse s).2).Perm (rulesOf s) := hp.map _
  have hk' : (sort R cr reverse s).2.ruleType = some .classification := by rw [hs]; exact hk
  have hr' : Classifiers (voteEnv R .classification) xs (rulesOf (sort R cr reverse s).2) n on c :=
    ⟨hr.points, fun r h => hr.act r (hp'.mem_iff.1 h), fun r h => hr.pred r (hp'.mem_iff.1 h), fun r h => hr.isClass r (hp'.mem_iff.1 h)⟩
  have hv' : ∃ r ∈ rulesOf (sort R cr reverse s).2, wt r ≠ 0 ∧ ∃ i < n, on r i = true := by
    obtain ⟨r, h, ho⟩ := hv
    exact ⟨r, hp'.mem_iff.2 h, ho⟩
  obtain ⟨l, l', e, e', -, -, h⟩ := C75_weighted_votes_partial (w := .series w) (wt := wt) ⟨hk, hr, hw, hpos, hv, .inl hu⟩
    ⟨hk', hr', fun r h => hw r (hp'.mem_iff.1 h), fun r h => hpos r (hp'.mem_iff.1 h), hv', .inl hu⟩
  refine ⟨l, e, ?_⟩
  rw [e', List.ext_getElem? fun i => h i (Active.sameActive_perm on i hp'.symm)]

/-- **C75 (sorting, means).**  The same for regression rules.
Missing: rules which predict zero or sums which are zero (`C75_zero_false`). -/
theorem C75_sort_means_partial {R : RsEnv} {xs : Option Xs} {n : Nat} {on : Rule → Nat → Bool} {p : Rule → Rat} {s : RuleSet}
    (hk : s.ruleType = some .regression) (hu : R.stackedFit = false) (hne : s.rules ≠ [])
    (hr : Regressors (voteEnv R .regression) xs (rulesOf s) n on p) (hp0 : ∀ r ∈ rulesOf s, p r ≠ 0)
    (hs : ∀ i < n, activeCount (rulesOf s) on i ≠ 0 → activeSum (rulesOf s) on p i ≠ 0)
    (hc : ∀ i < n, activeCount (rulesOf s) on i < 256) (ha : xs ≠ none ∨ ∀ r ∈ rulesOf s, R.storedRaw r = false)
    (cr : Option String) (reverse : Bool) :
    ∃ l, predict R xs none s = (.ok l, s) ∧ predict R xs none (sort R cr reverse s).2 = (.ok l, (sort R cr reverse s).2) := by
  obtain ⟨hp, hs', -⟩ := C27_same_rules R cr reverse s
  have hp' : (rulesOf (sort R cr reverse s).2).Perm (rulesOf s) := hp.map _
  have hk' : (sort R cr reverse s).2.ruleType = some .regression := by rw [hs']; exact hk
  have hsame : ∀ i, SameVoters on i (rulesOf (sort R cr reverse s).2) (rulesOf s) := fun i => Active.sameActive_perm on i hp'
  have hr' : Regressors (voteEnv R .regression) xs (rulesOf (sort R cr reverse s).2) n on p :=
    ⟨hr.points, fun r h => hr.act r (hp'.mem_iff.1 h), fun r h => hr.pred r (hp'.mem_iff.1 h), fun r h => hr.feature r (hp'.mem_iff.1 h)⟩
  have hfirst : ∀ {l : List Rule} {r rest}, l = r :: rest → r ∈ l := fun e => by rw [e]; exact List.mem_cons_self
  obtain ⟨l, l', e, e', -, -, h⟩ := C75_means_partial (s := s) (s' := (sort R cr reverse s).2)
    ⟨hk, hr, hne, .inl ⟨.inl hu, .inr ⟨hs, fun r _ e => hp0 r (hfirst e)⟩, hc,
      .inr (ha.imp id fun h r _ e => h r (hfirst e))⟩⟩
    ⟨hk', hr', fun e => hne (by rw [e] at hp; exact hp.nil_eq.symm),
      .inl ⟨.inl hu, .inr ⟨fun i hi h => by
        rw [Active.activeSum_same (hsame i)]
        exact hs i hi (by rwa [Active.activeCount_same (hsame i)] at h), fun r _ e => hp0 r (hp'.mem_iff.1 (hfirst e))⟩,
        fun i hi => by rw [Active.activeCount_same (hsame i)]; exact hc i hi,
        .inr (ha.imp id fun h r _ e => h r (hp'.mem_iff.1 (hfirst e)))⟩⟩
  refine ⟨l, e, ?_⟩
  rw [e', List.ext_getElem? fun i => h i (Active.sameActive_perm on i hp'.symm)]

/-- Two rules which vote, and a third one -/
def red : Rule := voter 0 [1, 1, 1] (.text "red")
def blue : Rule := voter 1 [0, 1, 1] (.text "blue")
def blue' : Rule := voter 2 [0, 0, 1] (.text "blue")

theorem rulesOf_setWith (k : Kind) (rules : List Rule) : rulesOf (setWith k rules) = rules := by
  simp [rulesOf, setWith, Function.comp_def]

theorem classifiers_ready {rules : List Rule} (hr : ∀ r ∈ rules, r = red ∨ r = blue ∨ r = blue') :
    Classifiers (voteEnv someRs .classification) none rules 3 isOn classOf := by
  refine ⟨by decide, fun r h => ?_, fun r h => ?_, fun r h => ?_⟩ <;> rcases hr r h with h | h | h <;> clear hr <;> subst h
  any_goals decide +kernel
  all_goals exact .inr ⟨_, rfl⟩

theorem voters_ready {rules : List Rule} (hr : ∀ r ∈ rules, r = red ∨ r = blue ∨ r = blue') (h0 : red ∈ rules) :
    PlainVotes someRs none 3 isOn classOf (setWith .classification rules) := by
  refine ⟨rfl, ?_, .inl ⟨.inl rfl, ?_⟩⟩
  · rw [rulesOf_setWith]
    exact classifiers_ready hr
  · rw [rulesOf_setWith]
    exact ⟨red, h0, 0, by decide, by decide +kernel⟩

/-- At the first two points the same rules are active in `[red, blue]` and in `[blue', blue, red]`, at the third one not. -/
example : ∃ l l', predict someRs none none (setWith .classification [red, blue]) = (.ok l, setWith .classification [red, blue]) ∧
    predict someRs none none (setWith .classification [blue', blue, red]) = (.ok l', setWith .classification [blue', blue, red]) ∧
    l[0]? = l'[0]? ∧ l[1]? = l'[1]? ∧ l[2]? ≠ l'[2]? := by
  obtain ⟨l, l', e, e', -, -, h⟩ := C75_votes_partial (voters_ready (rules := [red, blue]) (by simp) (by simp))
    (voters_ready (rules := [blue', blue, red]) (by simp) (by simp))
  refine ⟨l, l', e, e', h 0 ?_, h 1 ?_, ?_⟩
  · show List.Perm _ _
    decide +kernel
  · show List.Perm _ _
    decide +kernel
  · have h1 : (predict someRs none none (setWith .classification [red, blue])).1 =
        .ok [.label (.text "red"), .label (.num .nan), .label (.num .nan)] := by decide +kernel
    have h2 : (predict someRs none none (setWith .classification [blue', blue, red])).1 =
        .ok [.label (.text "red"), .label (.num .nan), .label (.text "blue")] := by decide +kernel
    rw [e] at h1
    rw [e'] at h2
    cases h1
    cases h2
    decide +kernel

/-- Rules with means -/
def two : Rule := voter 0 [1, 1, 0] (.num (.fin 2))
def five : Rule := voter 1 [0, 1, 0] (.num (.fin 5))
def seven : Rule := voter 2 [0, 0, 1] (.num (.fin 7))

/-- No activation is stored as an array. -/
def cleanRs : RsEnv := { someRs with storedRaw := fun _ => false }

theorem regressors_ready {rules : List Rule}
    (hr : ∀ r ∈ rules, r = two ∨ r = five ∨ r = seven) :
    Regressors (voteEnv cleanRs .regression) none rules 3 isOn number := by
  refine ⟨by decide, fun r h => ?_, fun r h => ?_, fun r h => ?_⟩ <;> rcases hr r h with h | h | h <;> clear hr <;> subst h <;> decide +kernel

/-- The same for means, with weights and without: the rule which predicts 7 is active at the last point only. -/
example :
    (∃ l l', predict cleanRs none none (setWith .regression [two, five]) = (.ok l, setWith .regression [two, five]) ∧
      predict cleanRs none none (setWith .regression [seven, five, two]) = (.ok l', setWith .regression [seven, five, two]) ∧
      l[1]? = l'[1]?) ∧
    ∃ l l', predict cleanRs none (some (.series (someWeights 1 3 2))) (setWith .regression [two, five]) =
        (.ok l, setWith .regression [two, five]) ∧
      predict cleanRs none (some (.series (someWeights 1 3 2))) (setWith .regression [seven, five, two]) =
        (.ok l', setWith .regression [seven, five, two]) ∧ l[1]? = l'[1]? := by
  have ha : SameVoters isOn 1 [two, five] [seven, five, two] := by
    show List.Perm _ _
    decide +kernel
  constructor
  · have key : ∀ rules, (∀ r ∈ rules, r = two ∨ r = five ∨ r = seven) → rules ≠ [] → rules.length < 256 →
        (∀ i < 3, activeCount rules isOn i ≠ 0 → activeSum rules isOn number i ≠ 0) →
        PlainMeans cleanRs none 3 isOn number (setWith .regression rules) := by
      intro rules hr hne hlen hs
      refine ⟨rfl, ?_, by simpa [setWith] using hne, .inl ⟨.inl rfl, .inr ⟨?_, ?_⟩, ?_, .inr (.inr ?_)⟩⟩ <;> rw [rulesOf_setWith]
      · exact regressors_ready hr
      · exact hs
      · intro r rest e
        rcases hr r (by rw [e]; exact List.mem_cons_self) with h | h | h <;> rw [h] <;> decide +kernel
      · intro i _
        exact lt_of_le_of_lt (List.length_filter_le _ _) hlen
      · intro r rest e
        rcases hr r (by rw [e]; exact List.mem_cons_self) with h | h | h <;> rw [h] <;> decide +kernel
    obtain ⟨l, l', e, e', -, -, h⟩ := C75_means_partial (key [two, five] (by simp) (by simp) (by decide) (by decide +kernel))
      (key [seven, five, two] (by simp) (by simp) (by decide) (by decide +kernel))
    refine ⟨l, l', e, e', h 1 ?_⟩
    rw [rulesOf_setWith, rulesOf_setWith]
    exact ha
  · have hw : ∀ r, r = two ∨ r = five ∨ r = seven →
        someWeights 1 3 2 ((voteEnv cleanRs .regression).condStr r.cond) =
          some (.fin (weightIn (voteEnv cleanRs .regression) (someWeights 1 3 2) r)) ∧
        0 < weightIn (voteEnv cleanRs .regression) (someWeights 1 3 2) r ∧ number r ≠ 0 := by
      rintro r (rfl | rfl | rfl) <;> decide +kernel
    have key : ∀ rules, (∀ r ∈ rules, r = two ∨ r = five ∨ r = seven) → two ∈ rules →
        (∀ i < 3, activeSum rules isOn (weightIn (voteEnv cleanRs .regression) (someWeights 1 3 2)) i ≠ 0 →
          activeSum rules isOn (fun r => number r * weightIn (voteEnv cleanRs .regression) (someWeights 1 3 2) r) i ≠ 0) →
        WeightedMeans cleanRs none (.series (someWeights 1 3 2)) 3 isOn number
          (weightIn (voteEnv cleanRs .regression) (someWeights 1 3 2)) (setWith .regression rules) := by
      intro rules hr h2 hs
      refine ⟨rfl, ?_, ?_, ?_, .inl ⟨.inl rfl, ?_, .inr ⟨?_, ?_⟩⟩⟩ <;> rw [rulesOf_setWith]
      · exact regressors_ready hr
      · exact fun r h => .inl (hw r (hr r h)).1
      · exact fun r h => (hw r (hr r h)).2.1.le
      · exact ⟨two, h2, (hw two (hr two h2)).2.1.ne'⟩
      · exact hs
      · intro r rest e
        exact (hw r (hr r (List.mem_of_mem_filter (by rw [← voters, e]; exact List.mem_cons_self)))).2.2
    obtain ⟨l, l', e, e', -, -, h⟩ := C75_weighted_means_partial (key [two, five] (by simp) (by simp) (by decide +kernel))
      (key [seven, five, two] (by simp) (by simp) (by decide +kernel))
    refine ⟨l, l', e, e', h 1 ?_⟩
    rw [rulesOf_setWith, rulesOf_setWith]
    exact ha

/-- Sorting does not change the means. -/
example : ∃ l, predict cleanRs none none (setWith .regression [seven, two, five]) =
      (.ok l, setWith .regression [seven, two, five]) ∧
    predict cleanRs none none (sort cleanRs none false (setWith .regression [seven, two, five])).2 =
      (.ok l, (sort cleanRs none false (setWith .regression [seven, two, five])).2) := by
  refine C75_sort_means_partial (n := 3) (on := isOn) (p := number) rfl rfl (by simp [setWith]) ?_ ?_ ?_ ?_ (.inr ?_) none false <;>
    rw [rulesOf_setWith]
  · exact regressors_ready (by simp)
  · simp only [List.forall_mem_cons, List.not_mem_nil, false_imp_iff, implies_true, and_true]
    decide +kernel
  · decide +kernel
  · decide +kernel
  · simp only [List.forall_mem_cons, List.not_mem_nil, false_imp_iff, implies_true, and_true]
    decide +kernel

/-- Sorting in reverse does not change the votes. -/
example : ∃ l, predict someRs none none (setWith .classification [blue', red, blue]) =
      (.ok l, setWith .classification [blue', red, blue]) ∧
    predict someRs none none (sort someRs none true (setWith .classification [blue', red, blue])).2 =
      (.ok l, (sort someRs none true (setWith .classification [blue', red, blue])).2) :=
  C75_sort_votes rfl rfl (by rw [rulesOf_setWith]; exact classifiers_ready (by simp))
    (by rw [rulesOf_setWith]; exact ⟨red, by simp, 0, by decide, by decide +kernel⟩) none true

/-- Votes with weights: `C75_weighted_votes_partial` and `C75_sort_weighted_votes` -/
example : ∃ l, predict someRs none (some (.series (someWeights 3 1 2))) (setWith .classification [blue', red, blue]) =
      (.ok l, setWith .classification [blue', red, blue]) ∧
    predict someRs none (some (.series (someWeights 3 1 2))) (sort someRs none true (setWith .classification [blue', red, blue])).2 =
      (.ok l, (sort someRs none true (setWith .classification [blue', red, blue])).2) := by
  refine C75_sort_weighted_votes (n := 3) (on := isOn) (c := classOf)
    (wt := weightIn (voteEnv someRs .classification) (someWeights 3 1 2)) rfl rfl ?_ ?_ ?_ ?_ none true <;>
    rw [rulesOf_setWith]
  · exact classifiers_ready (by simp)
  · intro r h
    left
    simp only [List.mem_cons, List.not_mem_nil, or_false] at h
    rcases h with rfl | rfl | rfl <;> decide +kernel
  · simp only [List.forall_mem_cons, List.not_mem_nil, false_imp_iff, implies_true, and_true]
    decide +kernel
  · exact ⟨red, by simp, by decide +kernel, 0, by decide, by decide +kernel⟩

/-- The same with stacked activations -/
def stackRs : RsEnv := { someRs with stackedFit := true }

/-- A ruleset which keeps the stacked activations of its rules -/
def stackSet (rules : List Rule) : RuleSet :=
  { setWith .classification rules with stacked := some (stackOf (voteEnv stackRs .classification) rules 3 isOn) }

/-- `red` and `blue` have the weights 3 and 2, `blue'` has the weight 1: `red` is the heaviest wherever it is active. -/
def redTop (r : Rule) (i : Nat) : Bool := decide (r = red) && decide (i < 3)

theorem stacked_ready {rules : List Rule} (hr : ∀ r ∈ rules, r = red ∨ r = blue ∨ r = blue') (h0 : red ∈ rules)
    (hd : DifferentNames (voteEnv stackRs .classification) rules)
    (h1 : ∀ i < 3, votes rules redTop classOf (fun _ => 1) (.text "red") i = 1 ∧
      votes rules redTop classOf (fun _ => 1) (.text "blue") i = 0) :
    StackedVotes stackRs none (.series (someWeights 3 2 1)) 3 isOn classOf
      (weightIn (voteEnv stackRs .classification) (someWeights 3 2 1)) redTop (stackSet rules) := by
  have hrules : rulesOf (stackSet rules) = rules := rulesOf_setWith _ _
  have hwt : weightIn (voteEnv stackRs .classification) (someWeights 3 2 1) red = 3 ∧
      weightIn (voteEnv stackRs .classification) (someWeights 3 2 1) blue = 2 ∧
      weightIn (voteEnv stackRs .classification) (someWeights 3 2 1) blue' = 1 := by decide +kernel
  have hwin : ∀ i < 3, Wins rules redTop classOf (fun _ => 1) (.text "red") i := by
    intro i hi
    refine ⟨by rw [(h1 i hi).1]; norm_num, fun k hk => ?_⟩
    rw [(h1 i hi).1]
    by_cases hb : k = .text "blue"
    · rw [hb, (h1 i hi).2]; norm_num
    · have : votes rules redTop classOf (fun _ => 1) k i = 0 := by
        unfold votes
        rw [List.filter_eq_nil_iff.2 fun r h => ?_]
        · rfl
        · rcases hr r h with rfl | rfl | rfl
          · simpa using fun _ => show classOf red ≠ k from hk.symm
          · simpa using fun _ => show classOf blue ≠ k from Ne.symm hb
          · simpa using fun _ => show classOf blue' ≠ k from Ne.symm hb
      rw [this]; norm_num
  refine ⟨rfl, ?_, ?_, ⟨rfl, ?_, ?_, _, rfl, ?_⟩, ?_, ?_, ?_, 0, by decide, 1, by decide, by decide, ?_, ?_⟩
  · rw [hrules]
    refine ⟨by decide, fun r h => ?_, fun r h => ?_, fun r h => ?_⟩ <;> rcases hr r h with h | h | h <;> clear hr h1 hwin <;> subst h
    any_goals decide +kernel
    all_goals exact .inr ⟨_, rfl⟩
  · rw [hrules]
    intro r h
    left
    rcases hr r h with h | h | h <;> clear hr h1 hwin <;> subst h <;> decide +kernel
  · intro m hm
    simp only [stackSet, setWith, List.mem_map] at hm
    obtain ⟨r, -, rfl⟩ := hm
    rfl
  · rw [hrules]; exact hd
  · intro _
    rw [hrules]
  · rw [hrules]
    refine .inr fun l hl => ?_
    obtain ⟨r, h, rfl⟩ := List.mem_map.1 hl
    rcases hr r h with rfl | rfl | rfl <;> exact ⟨_, rfl⟩
  · rw [hrules]
    intro r h
    rcases hr r h with h | h | h <;> clear hr h1 hwin <;> subst h <;> decide +kernel
  · rw [hrules]
    intro r h i hi
    have hon : isOn red i = true := by
      have : ∀ i < 3, isOn red i = true := by decide +kernel
      exact this i hi
    constructor
    · intro ht
      obtain rfl : r = red := by
        simp only [redTop, Bool.and_eq_true, decide_eq_true_eq] at ht
        exact ht.1
      refine ⟨by rw [hwt.1]; norm_num, hon, fun s hs _ _ => ?_⟩
      rcases hr s hs with rfl | rfl | rfl
      · exact le_refl _
      · rw [hwt.1, hwt.2.1]; norm_num
      · rw [hwt.1, hwt.2.2]; norm_num
    · rintro ⟨-, -, q⟩
      have q := q red h0 (by rw [hwt.1]; norm_num) hon
      rcases hr r h with rfl | rfl | rfl
      · simp [redTop, hi]
      · rw [hwt.1, hwt.2.1] at q; norm_num at q
      · rw [hwt.1, hwt.2.2] at q; norm_num at q
  · rw [hrules]; exact ⟨_, hwin 0 (by decide)⟩
  · rw [hrules]; exact ⟨_, hwin 1 (by decide)⟩

/-- `C75_weighted_votes_stacked_partial`, the second ruleset having one more rule, active at the last point only -/
example : ∃ l l', predict stackRs none (some (.series (someWeights 3 2 1))) (stackSet [red, blue]) = (.ok l, stackSet [red, blue]) ∧
    predict stackRs none (some (.series (someWeights 3 2 1))) (stackSet [blue', blue, red]) = (.ok l', stackSet [blue', blue, red]) ∧
    l[0]? = l'[0]? ∧ l[1]? = l'[1]? := by
  obtain ⟨l, l', e, e', -, -, h⟩ := C75_weighted_votes_stacked_partial
    (stacked_ready (rules := [red, blue]) (by simp) (by simp) (by unfold DifferentNames; decide +kernel) (by decide +kernel))
    (stacked_ready (rules := [blue', blue, red]) (by simp) (by simp) (by unfold DifferentNames; decide +kernel) (by decide +kernel))
  refine ⟨l, l', e, e', h 0 ?_, h 1 ?_⟩
  · show List.Perm _ _
    decide +kernel
  · show List.Perm _ _
    decide +kernel

/-- **C75 is false of sums which are zero:** a rule predicts zero at the only point where it is active; with another rule before it,
which is active elsewhere only, the prediction there is missing. -/
theorem C75_zero_false : ∃ s s' : RuleSet, ∃ on : Rule → Nat → Bool, (∀ r ∈ rulesOf s ++ rulesOf s', r.act = some (vec 2 (on r))) ∧
    SameVoters on 1 (rulesOf s) (rulesOf s') ∧
    (predict someRs none none s).1 = .ok [.label (.num .nan), .label (.num (.fin 0))] ∧
    (predict someRs none none s').1 = .ok [.label (.num (.fin 2)), .label (.num .nan)] := by
  refine ⟨setWith .regression [voter 1 [0, 1] (.num (.fin 0))],
    setWith .regression [voter 0 [1, 0] (.num (.fin 2)), voter 1 [0, 1] (.num (.fin 0))], isOn, ?_, ?_, ?_, ?_⟩
  · decide +kernel
  · show List.Perm _ _
    decide +kernel
  · decide +kernel
  · decide +kernel

/-- **C75 is false of votes with stacked activations:** the class of the second point goes to the first one when no other point is
decided; with one more rule, active at the last point only, it stays where it is. -/
theorem C75_stacked_false : ∃ s s' : RuleSet, ∃ on : Rule → Nat → Bool, (∀ r ∈ rulesOf s ++ rulesOf s', r.act = some (vec 3 (on r))) ∧
    SameVoters on 0 (rulesOf s) (rulesOf s') ∧ SameVoters on 1 (rulesOf s) (rulesOf s') ∧
    s.stacked = some (stackOf (voteEnv someRs .classification) (rulesOf s) 3 on) ∧
    s'.stacked = some (stackOf (voteEnv someRs .classification) (rulesOf s') 3 on) ∧
    (predict { someRs with stackedFit := true } none none s).1 =
      .ok [.label (.text "red"), .label (.num .nan), .label (.num .nan)] ∧
    (predict { someRs with stackedFit := true } none none s').1 =
      .ok [.label (.num .nan), .label (.text "red"), .label (.text "blue")] := by
  refine ⟨{ setWith .classification [voter 0 [0, 1, 0] (.text "red")] with stacked := some [("a", [0, 1, 0])] },
    { setWith .classification [voter 0 [0, 1, 0] (.text "red"), voter 1 [0, 0, 1] (.text "blue")] with
      stacked := some [("a", [0, 1, 0]), ("b", [0, 0, 1])] }, isOn, ?_, ?_, ?_, ?_, ?_, ?_, ?_⟩
  · decide +kernel
  · show List.Perm _ _
    decide +kernel
  · show List.Perm _ _
    decide +kernel
  all_goals decide +kernel

end Verif.ActiveProps
