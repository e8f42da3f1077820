import Verif.RoundedVoteLemmas

/-!
# Properties of predictions of rulesets computed with rounding
-/

namespace Verif.RoundedVoteProps

open Spec Rounded

/-! ## C58: weighted means -/

/-- **C58 (regression, partial).** At a point where some active rule has a weight, the weighted prediction of a ruleset is the weighted mean
of the predictions of the active rules up to `11 k u` of the weighted mean of their absolute values, where `k` is the number of rules; it
can only be NaN if the weighted mean is that close to zero.  Elsewhere it is NaN.  Missing: a first rule with a weight which predicts zero, for which
the claim is false (`C21`). -/
theorem C58_weighted_partial {A : Machine} {n : Nat} {rules : List (Voter Rat)} (h : Ballot A n rules)
    (hp : ∀ v ∈ rules, A.fl v.pred = v.pred) (hp0 : ∀ v, rules.find? (fun v => v.wt ≠ 0) = some v → v.pred ≠ 0) (hw : ∃ v ∈ rules, v.wt ≠ 0)
    (hu : 4 * (rules.length : Rat) * A.u ≤ 1) :
    ∃ r, weightedRegressor A rules = .ok r ∧ r.length = n ∧ ∀ i < n,
      (overActive rules Voter.wt i = 0 → r[i]? = some .nan) ∧
      (0 < overActive rules Voter.wt i →
        (r[i]? = some .nan ∧ |weightedMean rules i| ≤ 11 * rules.length * A.u * weightedSize rules i) ∨
        ∃ m, r[i]? = some (.fin m) ∧ |m - weightedMean rules i| ≤ 11 * rules.length * A.u * weightedSize rules i) := by
  have hne : weighty rules ≠ [] := weighty_ne hw
  refine ⟨_, weightedRegressor_eq h hp hp0 hne, by simp, fun i hi => ?_⟩
  rw [List.getElem?_map, List.getElem?_range hi]
  simp only [Option.map_some, Option.some.injEq]
  obtain ⟨d, hd⟩ := inOrder_adds A.fl ((weighty rules).map (termAt A i)) (by simpa using hne)
  obtain ⟨d', hd'⟩ := inOrder_adds A.fl ((weighty rules).map (wtAt i)) (by simpa using hne)
  have hwt : ∀ v ∈ weighty rules, 0 ≤ v.wt := fun v hv => wt_nonneg h (List.mem_of_mem_filter hv)
  constructor
  · intro h0
    rw [sum_terms_zero hd hwt (by rw [weighty_wt]; exact h0)]
    rfl
  · intro hpos
    obtain ⟨q1, q2⟩ := vote_error hd hd' (List.length_filter_le _ _) hwt (by rw [weighty_wt]; exact hpos) hu
    rw [weighty_mean, weighty_size] at q2
    by_cases hs : inOrder A.fl ((weighty rules).map (termAt A i)) = 0
    · left
      rw [hs] at q2 ⊢
      rw [zero_div, fl_zero, zero_sub, abs_neg] at q2
      exact ⟨rfl, q2⟩
    · right
      refine ⟨_, ?_, q2⟩
      simp [toOpt, hs, quotient, q1.ne']

/-- Rules over three points -/
def someVoters : List (Voter Rat) :=
  [⟨[1, 0, 1], double (1 / 10), some (double (1 / 5))⟩, ⟨[1, 0, 0], double (7 / 10), some (double (3 / 10))⟩, ⟨[0, 1, 0], 5, none⟩]

theorem ballot_of {α} {n : Nat} {rules : List (Voter α)} (h0 : 0 < n) (h1 : ∀ v ∈ rules, v.act.length = n)
    (h2 : ∀ v ∈ rules, ∀ a ∈ v.act, a = 0 ∨ a = 1) (h3 : ∀ v ∈ rules, 0 ≤ v.wt ∧ double v.wt = v.wt) : Ballot doubles n rules :=
  ⟨h0, h1, h2, fun v hv w hw => by
    have := h3 v hv
    simp only [Voter.wt, hw, Option.getD_some] at this
    exact this⟩

theorem someVoters_ballot : Ballot doubles 3 someVoters :=
  ballot_of (by decide) (by decide +kernel) (by decide +kernel) (by decide +kernel)

theorem someVoters_first : ∀ v, someVoters.find? (fun v => v.wt ≠ 0) = some v → v.pred ≠ 0 := by
  have e : someVoters.find? (fun v => v.wt ≠ 0) = some ⟨[1, 0, 1], double (1 / 10), some (double (1 / 5))⟩ := by
    rw [someVoters, List.find?_cons_of_pos]
    decide +kernel
  intro v hv
  rw [e] at hv
  cases hv
  decide +kernel

example : Ballot doubles 3 someVoters ∧ (∀ v ∈ someVoters, doubles.fl v.pred = v.pred) ∧ (∀ v, someVoters.find? (fun v => v.wt ≠ 0) = some v → v.pred ≠ 0) ∧
    (∃ v ∈ someVoters, v.wt ≠ 0) ∧ 4 * (someVoters.length : Rat) * doubles.u ≤ 1 ∧ overActive someVoters Voter.wt 1 = 0 ∧
    0 < overActive someVoters Voter.wt 0 :=
  ⟨someVoters_ballot, by decide +kernel, someVoters_first, by decide +kernel, by
    simp only [someVoters, doubles, List.length_cons, List.length_nil]; norm_num, by decide +kernel, by decide +kernel⟩

/-- **C58 (predictions of one sign).** Where the active rules with a weight all predict positive numbers, the prediction is a positive
number, with a relative error of at most `11 k u`; likewise for negative ones. -/
theorem C58_sign {A : Machine} {n : Nat} {rules : List (Voter Rat)} (h : Ballot A n rules)
    (hp : ∀ v ∈ rules, A.fl v.pred = v.pred) (hp0 : ∀ v, rules.find? (fun v => v.wt ≠ 0) = some v → v.pred ≠ 0) (hu : 4 * (rules.length : Rat) * A.u ≤ 1)
    {i : Nat} (hi : i < n) (hpos : 0 < overActive rules Voter.wt i) :
    ∃ r, weightedRegressor A rules = .ok r ∧
      ((∀ v ∈ rules, v.on i → v.wt ≠ 0 → 0 < v.pred) →
        ∃ m, r[i]? = some (.fin m) ∧ 0 < m ∧ |m - weightedMean rules i| ≤ 11 * rules.length * A.u * weightedMean rules i) ∧
      ((∀ v ∈ rules, v.on i → v.wt ≠ 0 → v.pred < 0) →
        ∃ m, r[i]? = some (.fin m) ∧ m < 0 ∧ |m - weightedMean rules i| ≤ 11 * rules.length * A.u * -weightedMean rules i) := by
  obtain ⟨v0, hv0, ho0, hw0⟩ := exists_active (fun v hv => wt_nonneg h hv) hpos
  have hne : weighty rules ≠ [] := weighty_ne ⟨v0, hv0, hw0⟩
  refine ⟨_, weightedRegressor_eq h hp hp0 hne, ?_⟩
  rw [List.getElem?_map, List.getElem?_range hi]
  simp only [Option.map_some, Option.some.injEq]
  obtain ⟨d, hd⟩ := inOrder_adds A.fl ((weighty rules).map (termAt A i)) (by simpa using hne)
  obtain ⟨d', hd'⟩ := inOrder_adds A.fl ((weighty rules).map (wtAt i)) (by simpa using hne)
  have hwt : ∀ v ∈ weighty rules, 0 ≤ v.wt := fun v hv => wt_nonneg h (List.mem_of_mem_filter hv)
  have hin : v0 ∈ weighty rules := List.mem_filter.2 ⟨hv0, by simpa using hw0⟩
  obtain ⟨q1, q2⟩ := vote_error hd hd' (List.length_filter_le _ _) hwt (by rw [weighty_wt]; exact hpos) hu
  rw [weighty_mean, weighty_size] at q2
  have hterm0 : v0.pred ≠ 0 → termAt A i v0 ≠ 0 := by
    intro hne0
    unfold termAt
    rw [if_pos ho0, ne_eq, fl_eq_zero]
    exact mul_ne_zero hne0 hw0
  constructor
  · intro hs
    have hl : ∀ x ∈ (weighty rules).map (termAt A i), 0 ≤ x := by
      rw [List.forall_mem_map]
      intro v hv
      unfold termAt
      split
      · next ho =>
        have hv' := List.mem_filter.1 hv
        exact fl_nonneg A (mul_nonneg (hs v hv'.1 ho (by simpa using hv'.2)).le (hwt v hv))
      · exact le_refl _
    have hs0 : inOrder A.fl ((weighty rules).map (termAt A i)) ≠ 0 := fun e =>
      hterm0 (hs v0 hv0 ho0 hw0).ne' ((hd.eq_zero (.inl hl)).1 e _ (List.mem_map_of_mem hin))
    have hspos := lt_of_le_of_ne (hd.nonneg hl) (Ne.symm hs0)
    refine ⟨_, by simp [toOpt, hs0, quotient, q1.ne'], fl_pos A (div_pos hspos q1), ?_⟩
    have e : weightedSize rules i = weightedMean rules i := by
      unfold weightedSize weightedMean overActive
      congr 2
      apply List.map_congr_left
      intro v hv
      obtain ⟨hv, ho⟩ := List.mem_filter.1 hv
      by_cases hw : v.wt = 0
      · simp [hw]
      · rw [abs_of_pos (hs v hv ho hw)]
    rwa [e] at q2
  · intro hs
    have hl : ∀ x ∈ (weighty rules).map (termAt A i), x ≤ 0 := by
      rw [List.forall_mem_map]
      intro v hv
      unfold termAt
      split
      · next ho =>
        have hv' := List.mem_filter.1 hv
        exact fl_nonpos A (mul_nonpos_of_nonpos_of_nonneg (hs v hv'.1 ho (by simpa using hv'.2)).le (hwt v hv))
      · exact le_refl _
    have hs0 : inOrder A.fl ((weighty rules).map (termAt A i)) ≠ 0 := fun e =>
      hterm0 (hs v0 hv0 ho0 hw0).ne ((hd.eq_zero (.inr hl)).1 e _ (List.mem_map_of_mem hin))
    have hsneg := lt_of_le_of_ne (hd.nonpos hl) hs0
    refine ⟨_, by simp [toOpt, hs0, quotient, q1.ne'], fl_neg A (div_neg_of_neg_of_pos hsneg q1), ?_⟩
    have e : weightedSize rules i = -weightedMean rules i := by
      unfold weightedSize weightedMean
      rw [← neg_div]
      congr 1
      unfold overActive
      rw [List.sum_neg, List.map_map]
      congr 1
      apply List.map_congr_left
      intro v hv
      obtain ⟨hv, ho⟩ := List.mem_filter.1 hv
      by_cases hw : v.wt = 0
      · simp [hw]
      · rw [abs_of_neg (hs v hv ho hw)]; simp
    rwa [e] at q2

example : Ballot doubles 3 someVoters ∧ 0 < overActive someVoters Voter.wt 0 ∧ (∀ v ∈ someVoters, v.on 0 → v.wt ≠ 0 → 0 < v.pred) :=
  ⟨someVoters_ballot, by decide +kernel, by decide +kernel⟩

/-- **C58 (stacked).** The prediction computed from the stacked DataFrames obeys the same bound, in whatever order pandas adds them up, also
when rules predict zero, and is a number wherever some active rule has a weight. -/
theorem C58_stacked {A : Machine} {n : Nat} {rules : List (Voter Rat)} (h : Ballot A n rules)
    (hp : ∀ v ∈ rules, A.fl v.pred = v.pred) (hw : ∃ v ∈ rules, v.wt ≠ 0 ∧ ∃ i < n, v.on i)
    (hu : 4 * (rules.length : Rat) * A.u ≤ 1) :
    ∃ r, weightedRegressorStacked A n rules = .ok r ∧ r.length = n ∧ ∀ i < n,
      (overActive rules Voter.wt i = 0 → r[i]? = some .nan) ∧
      (0 < overActive rules Voter.wt i →
        ∃ m, r[i]? = some (.fin m) ∧ |m - weightedMean rules i| ≤ 11 * rules.length * A.u * weightedSize rules i) := by
  have hne : rules.filter kept ≠ [] := by
    obtain ⟨v, hv, hw, i, hi, ho⟩ := hw
    intro e
    rw [List.filter_eq_nil_iff] at e
    exact hw (kept_false h hv hi (by simpa using e v hv) ho)
  refine ⟨_, weightedRegressorStacked_eq h hp hne, by simp, fun i hi => ?_⟩
  rw [List.getElem?_map, List.getElem?_range hi]
  simp only [Option.map_some, Option.some.injEq]
  obtain ⟨d, hd⟩ := A.sum_adds ((rules.filter kept).map (termAt A i)) (by simpa using hne)
  obtain ⟨d', hd'⟩ := A.sum_adds ((rules.filter kept).map (wtAt i)) (by simpa using hne)
  have hwt : ∀ v ∈ rules.filter kept, 0 ≤ v.wt := fun v hv => wt_nonneg h (List.mem_of_mem_filter hv)
  have e1 : overActive (rules.filter kept) Voter.wt i = overActive rules Voter.wt i :=
    overActive_filter _ _ _ _ fun v hv hk ho => kept_false h hv hi hk ho
  have e2 : weightedMean (rules.filter kept) i = weightedMean rules i := by
    unfold weightedMean
    rw [e1, overActive_filter _ _ _ _ fun v hv hk ho => by rw [kept_false h hv hi hk ho, zero_mul]]
  have e3 : weightedSize (rules.filter kept) i = weightedSize rules i := by
    unfold weightedSize
    rw [e1, overActive_filter _ _ _ _ fun v hv hk ho => by rw [kept_false h hv hi hk ho, zero_mul]]
  constructor
  · intro h0
    rw [sum_terms_zero hd hwt (by rw [e1]; exact h0), sum_weights_zero hd' hwt (by rw [e1]; exact h0)]
    simp only [quotient, if_true]
    decide +kernel
  · intro hpos
    obtain ⟨q1, q2⟩ := vote_error hd hd' (List.length_filter_le _ _) hwt (by rw [e1]; exact hpos) hu
    rw [e2, e3] at q2
    refine ⟨_, ?_, q2⟩
    simp [quotient, q1.ne']

example : ∃ v ∈ someVoters, v.wt ≠ 0 ∧ ∃ i < 3, v.on i := by decide +kernel

/-- **C58 (orders and stacking, partial).** The prediction for the same rules in another order, or computed in the other way, differs by at
most `22 k u` of the weighted mean of the absolute values, where it is not NaN.  Missing: that the prediction does not change, which is
false (`C58_order_false`). -/
theorem C58_order_partial {A : Machine} {n : Nat} {rules rules' : List (Voter Rat)} (h : Ballot A n rules)
    (hp : ∀ v ∈ rules, A.fl v.pred = v.pred) (hp0 : ∀ v, rules.find? (fun v => v.wt ≠ 0) = some v → v.pred ≠ 0) (hp0' : ∀ v, rules'.find? (fun v => v.wt ≠ 0) = some v → v.pred ≠ 0)
    (hperm : rules.Perm rules')
    (hu : 4 * (rules.length : Rat) * A.u ≤ 1) {i : Nat} (hi : i < n) (hpos : 0 < overActive rules Voter.wt i) :
    ∃ r r' s, weightedRegressor A rules = .ok r ∧ weightedRegressor A rules' = .ok r' ∧ weightedRegressorStacked A n rules = .ok s ∧
      ∀ m, r[i]? = some (.fin m) →
        (∀ m', r'[i]? = some (.fin m') → |m - m'| ≤ 22 * rules.length * A.u * weightedSize rules i) ∧
        ∃ m', s[i]? = some (.fin m') ∧ |m - m'| ≤ 22 * rules.length * A.u * weightedSize rules i := by
  obtain ⟨v0, hv0, ho0, hw0⟩ := exists_active (fun v hv => wt_nonneg h hv) hpos
  have h' : Ballot A n rules' := ⟨h.points, fun v hv => h.length v (hperm.mem_iff.2 hv), fun v hv => h.binary v (hperm.mem_iff.2 hv),
    fun v hv => h.weight v (hperm.mem_iff.2 hv)⟩
  obtain ⟨r, hr, -, H⟩ := C58_weighted_partial h hp hp0 ⟨v0, hv0, hw0⟩ hu
  obtain ⟨r', hr', -, H'⟩ := C58_weighted_partial h' (fun v hv => hp v (hperm.mem_iff.2 hv)) hp0'
    ⟨v0, hperm.mem_iff.1 hv0, hw0⟩ (by rw [← hperm.length_eq]; exact hu)
  obtain ⟨s, hs, -, Hs⟩ := C58_stacked h hp ⟨v0, hv0, hw0, i, hi, ho0⟩ hu
  have e : ∀ f, overActive rules' f i = overActive rules f i := fun f => (((hperm.filter _).map f).sum_eq).symm
  have e2 : weightedMean rules' i = weightedMean rules i := by unfold weightedMean; rw [e, e]
  have e3 : weightedSize rules' i = weightedSize rules i := by unfold weightedSize; rw [e, e]
  have tri : ∀ {m m' : Rat}, |m - weightedMean rules i| ≤ 11 * rules.length * A.u * weightedSize rules i →
      |m' - weightedMean rules i| ≤ 11 * rules.length * A.u * weightedSize rules i →
      |m - m'| ≤ 22 * rules.length * A.u * weightedSize rules i := by
    intro m m' h1 h2
    have := abs_add_le (m - weightedMean rules i) (weightedMean rules i - m')
    rw [sub_add_sub_cancel, abs_sub_comm (weightedMean rules i)] at this
    linarith
  refine ⟨r, r', s, hr, hr', hs, fun m hm => ?_⟩
  have hm1 : |m - weightedMean rules i| ≤ 11 * rules.length * A.u * weightedSize rules i := by
    rcases (H i hi).2 hpos with ⟨hn, _⟩ | ⟨x, hx, hb⟩
    · rw [hn] at hm; cases hm
    · rw [hx] at hm; cases hm; exact hb
  constructor
  · intro m' hm'
    rcases (H' i hi).2 (by rw [e]; exact hpos) with ⟨hn, _⟩ | ⟨x, hx, hb⟩
    · rw [hn] at hm'; cases hm'
    · rw [hx] at hm'
      cases hm'
      rw [e2, e3, ← hperm.length_eq] at hb
      exact tri hm1 hb
  · obtain ⟨m', hm', hb⟩ := (Hs i hi).2 hpos
    exact ⟨m', hm', tri hm1 hb⟩

example : someVoters.Perm someVoters.reverse ∧ Ballot doubles 3 someVoters ∧ 0 < overActive someVoters Voter.wt 2 :=
  ⟨(List.reverse_perm _).symm, someVoters_ballot, by decide +kernel⟩

/-- **C58 is false of orders**: three rules, weighted 1, predict NaN in one order and -1/3 in another. -/
theorem C58_order_false : ∃ rules rules' : List (Voter Rat), rules.Perm rules' ∧
    weightedRegressor doubles rules = .ok [.nan] ∧ weightedRegressor doubles rules' = .ok [.fin (double (-1 / 3))] :=
  ⟨[⟨[1], 10 ^ 16, some 1⟩, ⟨[1], -1, some 1⟩, ⟨[1], -10 ^ 16, some 1⟩], [⟨[1], 10 ^ 16, some 1⟩, ⟨[1], -10 ^ 16, some 1⟩, ⟨[1], -1, some 1⟩],
    .cons _ (.swap _ _ _), by decide +kernel, by decide +kernel⟩

/-- **C58 is false of a single rule**: a ruleset of one rule predicting 0.1, weighted 0.1, predicts more than 0.1. -/
theorem C58_single_false : ∃ m, weightedRegressor doubles [⟨[1], double (1 / 10), some (double (1 / 10))⟩] = .ok [.fin m] ∧
    double (1 / 10) < m :=
  ⟨double (double (double (1 / 10) * double (1 / 10)) / double (1 / 10)), by decide +kernel, by decide +kernel⟩

/-! ## C58: classes -/

/-- **C58 (classes, partial).** With `e = 2 k u` for `k` rules: a class whose total weight, less a fraction `e` of it, exceeds the total of
every other class plus a fraction `e` is predicted; and no class whose total falls behind that of another by more than this is ever
predicted.  Missing: totals closer than that, for which the claim is false (`C58_class_false`). -/
theorem C58_class_partial {A : Machine} {n : Nat} {rules : List (Voter Label)} (h : Ballot A n rules) (hc : ∀ v ∈ rules, IsClass v.pred)
    (hw : ∃ v ∈ rules, v.wt ≠ 0 ∧ ∃ i < n, v.on i) (hu : 2 * (rules.length : Rat) * A.u < 1) :
    ∃ r, weightedClassifier A rules = .ok r ∧ r.length = n ∧ ∀ i < n, ∃ c, r[i]? = some c ∧
      (∀ k, (∀ k', k' ≠ k → total rules k' i * (1 + 2 * rules.length * A.u) < total rules k i * (1 - 2 * rules.length * A.u)) → c = k) ∧
      (c ≠ .num .nan → 0 < total rules c i ∧
        ∀ k', total rules k' i * (1 - 2 * rules.length * A.u) ≤ total rules c i * (1 + 2 * rules.length * A.u)) ∧
      ((∀ k, total rules k i = 0) → c = .num .nan) := by
  obtain ⟨ks, hn, hne, hks, e⟩ := weightedClassifier_eq h hc (audible_ne h hw)
  refine ⟨_, e, by simp, fun i hi => ⟨_, by rw [List.getElem?_map, List.getElem?_range hi]; rfl, ?_⟩⟩
  have herr := fun k => abs_le.1 (tally_error h hi k hu.le)
  have hT : ∀ k, 0 ≤ total rules k i := total_nonneg h i
  have hu0 : 0 ≤ 2 * (rules.length : Rat) * A.u := by have := A.u_nonneg; positivity
  set e := 2 * (rules.length : Rat) * A.u
  have hlo : ∀ k, total rules k i * (1 - e) ≤ tally A (audible rules) k i := fun k => by linarith [(herr k).1]
  have hhi : ∀ k, tally A (audible rules) k i ≤ total rules k i * (1 + e) := fun k => by linarith [(herr k).2]
  have h0 : ∀ k, 0 ≤ tally A (audible rules) k i := fun k =>
    (mul_nonneg (hT k) (by linarith)).trans (hlo k)
  have hzero : ∀ k, total rules k i = 0 → tally A (audible rules) k i = 0 := fun k hk => by
    have := hhi k
    rw [hk, zero_mul] at this
    exact le_antisymm this (h0 k)
  obtain ⟨d1, d2⟩ := decideClass_iff hn hne h0 (f := fun k => tally A (audible rules) k i) (by
    intro k hk
    unfold tally
    rw [List.filter_eq_nil_iff.2]
    · rfl
    · intro v hv
      simp only [decide_eq_true_eq]
      exact fun e => hk ((hks k).2 ⟨v, hv, e⟩)) (by
    intro k hk
    obtain ⟨v, hv, rfl⟩ := (hks k).1 hk
    exact hc v (List.mem_of_mem_filter hv))
  refine ⟨?_, ?_, ?_⟩
  · intro k hk
    have hlt : ∀ k', k' ≠ k → tally A (audible rules) k' i < tally A (audible rules) k i := fun k' hne =>
      (hhi k').trans_lt ((hk k' hne).trans_le (hlo k))
    obtain ⟨k', hne⟩ : ∃ k' : Label, k' ≠ k := by
      by_cases e : k = .text ""
      · exact ⟨.text "a", by rw [e]; decide⟩
      · exact ⟨.text "", fun h => e h.symm⟩
    exact d1 k ((h0 k').trans_lt (hlt k' hne)) hlt
  · intro hcn
    rcases d2 with ⟨hx, _⟩ | ⟨hx, hy⟩
    · exact absurd hx hcn
    · refine ⟨lt_of_le_of_ne (hT _) fun h => hx.ne' (hzero _ h.symm), fun k' => ?_⟩
      refine (hlo k').trans (le_trans ?_ (hhi _))
      by_cases e' : k' = Vote.decideClass (ks.map fun k => (k, Num.fin (tally A (audible rules) k i)))
      · exact e' ▸ le_refl _
      · exact (hy k' e').le
  · intro hall
    rcases d2 with ⟨hx, _⟩ | ⟨hx, _⟩
    · exact hx
    · exact absurd (hzero _ (hall _)) hx.ne'

/-- Rules predicting classes -/
def classVoters : List (Voter Label) :=
  [⟨[1, 1], .text "a", some (double (1 / 10))⟩, ⟨[1, 0], .text "a", some (double (1 / 5))⟩, ⟨[1, 0], .text "a", some (double (3 / 10))⟩,
    ⟨[1, 1], .text "b", some (double (3 / 5))⟩]

theorem classVoters_ballot : Ballot doubles 2 classVoters :=
  ballot_of (by decide) (by decide +kernel) (by decide +kernel) (by decide +kernel)

example : Ballot doubles 2 classVoters ∧ (∀ v ∈ classVoters, IsClass v.pred) ∧ (∃ v ∈ classVoters, v.wt ≠ 0 ∧ ∃ i < 2, v.on i) ∧
    2 * (classVoters.length : Rat) * doubles.u < 1 ∧
    total classVoters (.text "a") 1 * (1 + 2 * classVoters.length * doubles.u) <
      total classVoters (.text "b") 1 * (1 - 2 * classVoters.length * doubles.u) := by
  refine ⟨classVoters_ballot, ?_, by decide +kernel, ?_, by decide +kernel⟩
  · intro v hv
    simp only [classVoters, List.mem_cons, List.not_mem_nil, or_false] at hv
    rcases hv with rfl | rfl | rfl | rfl <;> exact .inr ⟨_, rfl⟩
  · simp only [classVoters, doubles, List.length_cons, List.length_nil]; norm_num

/-- **C58 (whole weights).** When the weights are integers whose sum is a number up to which all integers are floats — for instance when all
weights are 1 — the vote is exact: the class with the greatest total is predicted, and NaN if there is none. -/
theorem C58_class_integers {A : Machine} {N : Int} (hN : ∀ m : Int, |m| ≤ N → A.fl m = m) {n : Nat} {rules : List (Voter Label)}
    (h : Ballot A n rules) (hc : ∀ v ∈ rules, IsClass v.pred) (hw : ∃ v ∈ rules, v.wt ≠ 0 ∧ ∃ i < n, v.on i)
    (hint : ∀ v ∈ rules, ∃ m : Int, v.wt = m) (hsum : (rules.map Voter.wt).sum ≤ N) :
    ∃ r, weightedClassifier A rules = .ok r ∧ r.length = n ∧ ∀ i < n, ∃ c, r[i]? = some c ∧
      (∀ k, 0 < total rules k i → (∀ k', k' ≠ k → total rules k' i < total rules k i) → c = k) ∧
      ((∀ k, 0 < total rules k i → ∃ k', k' ≠ k ∧ total rules k i ≤ total rules k' i) → c = .num .nan) := by
  obtain ⟨ks, hn, hne, hks, e⟩ := weightedClassifier_eq h hc (audible_ne h hw)
  refine ⟨_, e, by simp, fun i hi => ⟨_, by rw [List.getElem?_map, List.getElem?_range hi]; rfl, ?_⟩⟩
  have hex := fun k => tally_integers hN h hint hsum hi k
  simp only [hex]
  obtain ⟨d1, d2⟩ := decideClass_iff hn hne (f := fun k => total rules k i) (total_nonneg h i) (by
    intro k hk
    show total rules k i = 0
    rw [← hex]
    unfold tally
    rw [List.filter_eq_nil_iff.2]
    · rfl
    · intro v hv
      simp only [decide_eq_true_eq]
      exact fun e => hk ((hks k).2 ⟨v, hv, e⟩)) (by
    intro k hk
    obtain ⟨v, hv, rfl⟩ := (hks k).1 hk
    exact hc v (List.mem_of_mem_filter hv))
  refine ⟨d1, fun hall => ?_⟩
  rcases d2 with ⟨hx, _⟩ | ⟨hx, hy⟩
  · exact hx
  · obtain ⟨k', hk', hle⟩ := hall _ hx
    exact absurd (hy k' hk') (not_lt.2 hle)

/-- Four rules of weight 1 -/
def equalVoters : List (Voter Label) :=
  [⟨[1, 1], .text "a", some 1⟩, ⟨[1, 0], .text "a", some 1⟩, ⟨[1, 1], .text "b", some 1⟩]

example : (∀ m : Int, |m| ≤ 2 ^ 53 → doubles.fl m = m) ∧ Ballot doubles 2 equalVoters ∧ (∀ v ∈ equalVoters, IsClass v.pred) ∧
    (∃ v ∈ equalVoters, v.wt ≠ 0 ∧ ∃ i < 2, v.on i) ∧ (∀ v ∈ equalVoters, ∃ m : Int, v.wt = m) ∧
    (equalVoters.map Voter.wt).sum ≤ ((2 ^ 53 : Int) : Rat) ∧ weightedClassifier doubles equalVoters = .ok [.text "a", .num .nan] := by
  refine ⟨double_int, ballot_of (by decide) (by decide +kernel) (by decide +kernel) (by decide +kernel), ?_, by decide +kernel, ?_,
    by decide +kernel, by decide +kernel⟩
  · intro v hv
    simp only [equalVoters, List.mem_cons, List.not_mem_nil, or_false] at hv
    rcases hv with rfl | rfl | rfl <;> exact .inr ⟨_, rfl⟩
  · intro v hv
    simp only [equalVoters, List.mem_cons, List.not_mem_nil, or_false] at hv
    rcases hv with rfl | rfl | rfl <;> exact ⟨1, rfl⟩

/-- **C58 is false of close totals**: at the first point class "a" has the greatest total, and is predicted; with the same rules in another
order, the ruleset predicts NaN there. -/
theorem C58_class_false : ∃ rules rules' : List (Voter Label), rules.Perm rules' ∧
    total rules (.text "b") 0 < total rules (.text "a") 0 ∧
    weightedClassifier doubles rules = .ok [.text "a", .text "b"] ∧ weightedClassifier doubles rules' = .ok [.num .nan, .text "b"] :=
  ⟨classVoters, classVoters.reverse, (List.reverse_perm _).symm, by decide +kernel, by decide +kernel, by decide +kernel⟩

end Verif.RoundedVoteProps
