import Verif.LocalLemmas
import Verif.PredictProps

/-!
# C66: the prediction at a point depends on this point only
-/

namespace Verif.LocalProps

open Verif Spec Vote RuleSet Local RuleSetProps

variable {i j : Nat}

/-- **C66 (one rule).**  A rule predicts the same at two points with the same features, whichever data sets they are in and
whatever the other points are. -/
theorem C66_rule {E : Env} {r : Rule} {xs xs' : Xs} (hp : SamePoint xs i xs' j) {l l' : List Label}
    (h : r.predict E (some xs) = .ok l) (h' : r.predict E (some xs') = .ok l') : Same i j l l' := by
  unfold Rule.predict at h h'
  simp only [bind, Except.bind] at h h'
  split at h
  · cases h
  rename_i _ v hv
  split at h'
  · cases h'
  rename_i _ v' hv'
  have hs := evaluateActivation_same hp hv hv'
  cases hq : r.getPrediction E with
  | error e => rw [hq] at h; cases h
  | ok q =>
    rw [hq] at h h'
    cases q with
    | none =>
      cases h
      cases h'
      exact same_map _ hs
    | some q =>
      cases q with
      | num x =>
        cases h
        cases h'
        exact same_map _ hs
      | text s =>
        simp only at h h'
        split at h
        · cases h
        · rename_i hn
          rw [if_neg hn] at h'
          cases h
          cases h'
          exact same_map _ hs

/-- **C66 (means of rules).**  So does a ruleset of regression rules, with weights or without, with stacked activations or without.
Missing: a data set may raise where the other does not (`C66_zero_false`). -/
theorem C66_regression_partial {R : RsEnv} {s t t' : RuleSet} {xs xs' : Xs} (hp : SamePoint xs i xs' j) {w : Option WeightsArg}
    (hk : s.ruleType = some .regression) (hne : s.rules ≠ []) {l l' : List Cell} (h : predict R (some xs) w s = (.ok l, t))
    (h' : predict R (some xs') w s = (.ok l', t')) : Same i j l l' := by
  have h0 : ¬ s.rules.length = 0 := fun e => hne (List.length_eq_zero_iff.1 e)
  unfold predict at h h'
  rw [Py.bind_ok (Py.get_run s)] at h h'
  simp only [if_neg h0, hk] at h h'
  cases hst : R.stackedFit with
  | false =>
    rw [hst] at h h'
    exact predictUnstacked_same hp hne h h'
  | true =>
    cases hc : s.stacked with
    | none =>
      rw [hst, hc] at h h'
      exact predictUnstacked_same hp hne h h'
    | some c =>
      rw [hst, hc] at h h'
      simp only at h h'
      obtain ⟨a, s1, ha, h⟩ := Py.bind_eq_ok h
      obtain ⟨a', s2, ha', h'⟩ := Py.bind_eq_ok h'
      obtain ⟨w1, s3, hw1, h⟩ := Py.bind_eq_ok h
      obtain ⟨w2, s4, hw2, h'⟩ := Py.bind_eq_ok h'
      have e1 := ofExcept_ok hw1
      have e2 := ofExcept_ok hw2
      rw [e1] at e2
      cases e2
      have f1 := ofExcept_ok ha
      have f2 := ofExcept_ok ha'
      unfold stackFor at f1 f2
      simp only at f1 f2
      cases ho : evaluateStacked R (some xs) s.rules with
      | error e => rw [ho] at f1; cases f1
      | ok o =>
        cases ho' : evaluateStacked R (some xs') s.rules with
        | error e => rw [ho'] at f2; cases f2
        | ok o' =>
          rw [ho] at f1
          rw [ho'] at f2
          cases f1
          cases f2
          obtain ⟨hcol, hnil⟩ := evaluateStacked_same hp hne ho ho'
          exact predictStacked_same rfl hcol hnil (ofExcept_ok h) (ofExcept_ok h')

/-- **C66 (votes with weights).**  So does a ruleset of classification rules whose weights are not negative, if in each data set
a rule with a weight is active at some point.
Missing: negative weights (`C66_negative_false`), stacked activations (`C66_stacked_false`), data sets without active rule
(`C66_raises_false`). -/
theorem C66_weighted_classes_partial {R : RsEnv} {s t t' : RuleSet} {xs xs' : Xs} (hp : SamePoint xs i xs' j) {w : WeightsArg}
    {n n' : Nat} {on on' : Rule → Nat → Bool} {c : Rule → Label} {wt : Rule → Rat} (hk : s.ruleType = some .classification)
    (hu : R.stackedFit = false ∨ s.stacked = none) (hc : Classifiers (voteEnv R .classification) (some xs) (rulesOf s) n on c)
    (hc' : Classifiers (voteEnv R .classification) (some xs') (rulesOf s) n' on' c)
    (hw : WeightsGiven (voteEnv R .classification) (rulesOf s) wt w) (hpos : ∀ r ∈ rulesOf s, 0 ≤ wt r)
    (hv : ∃ r ∈ rulesOf s, wt r ≠ 0 ∧ ∃ k < n, on r k = true) (hv' : ∃ r ∈ rulesOf s, wt r ≠ 0 ∧ ∃ k < n', on' r k = true)
    {l l' : List Cell} (h : predict R (some xs) (some w) s = (.ok l, t)) (h' : predict R (some xs') (some w) s = (.ok l', t')) :
    Same i j l l' := by
  obtain ⟨a, ha, hva⟩ := C23_predict_partial hk hu hc hw hpos hv
  obtain ⟨b, hb, hvb⟩ := C23_predict_partial hk hu hc' hw hpos hv'
  rw [h] at ha
  rw [h'] at hb
  cases ha
  cases hb
  obtain ⟨r, hr, -⟩ := hv
  obtain ⟨hi, hj, -⟩ := on_same hp (hc.act r hr) (hc'.act r hr)
  exact same_map _ (isVote_same hi hj (fun r hr => (on_same hp (hc.act r hr) (hc'.act r hr)).2.2) hva hvb)

/-- **C66 (votes without weights).**
Missing: stacked activations of which fewer than two points are decided (`C66_stacked_false`), data sets without active rule
(`C66_raises_false`). -/
theorem C66_classes_partial {R : RsEnv} {s t t' : RuleSet} {xs xs' : Xs} (hp : SamePoint xs i xs' j) {n n' : Nat}
    {on on' : Rule → Nat → Bool} {c : Rule → Label} (hk : s.ruleType = some .classification)
    (hu : R.stackedFit = false ∨ s.stacked = none) (hc : Classifiers (voteEnv R .classification) (some xs) (rulesOf s) n on c)
    (hc' : Classifiers (voteEnv R .classification) (some xs') (rulesOf s) n' on' c)
    (hv : ∃ r ∈ rulesOf s, ∃ k < n, on r k = true) (hv' : ∃ r ∈ rulesOf s, ∃ k < n', on' r k = true)
    {l l' : List Cell} (h : predict R (some xs) none s = (.ok l, t)) (h' : predict R (some xs') none s = (.ok l', t')) :
    Same i j l l' := by
  obtain ⟨a, ha, hva⟩ := C24_predict_partial hk hu hc hv
  obtain ⟨b, hb, hvb⟩ := C24_predict_partial hk hu hc' hv'
  rw [h] at ha
  rw [h'] at hb
  cases ha
  cases hb
  obtain ⟨r, hr, -⟩ := hv
  obtain ⟨hi, hj, -⟩ := on_same hp (hc.act r hr) (hc'.act r hr)
  exact same_map _ (isVote_same hi hj (fun r hr => (on_same hp (hc.act r hr) (hc'.act r hr)).2.2) hva hvb)

/-- **C66 (votes with stacked activations)**, when two points are decided in each data set. -/
theorem C66_stacked_classes_partial {R : RsEnv} {s t t' : RuleSet} {xs xs' : Xs} (hp : SamePoint xs i xs' j) {n n' : Nat}
    {on on' : Rule → Nat → Bool} {c : Rule → Label} {cols : Columns Nat} (hk : s.ruleType = some .classification)
    (hkind : ∀ m ∈ s.rules, m.kind = .classification) (hu : R.stackedFit = true) (hst : s.stacked = some cols)
    (hc : Classifiers (voteEnv R .classification) (some xs) (rulesOf s) n on c)
    (hc' : Classifiers (voteEnv R .classification) (some xs') (rulesOf s) n' on' c)
    (hd : DifferentNames (voteEnv R .classification) (rulesOf s)) (hs : SameType ((rulesOf s).map c))
    (hnan : ∀ r ∈ rulesOf s, c r ≠ .text "nan")
    (hv : ∃ p < n, ∃ q < n, p ≠ q ∧ (∃ a, Wins (rulesOf s) on c (fun _ => 1) a p) ∧ ∃ b, Wins (rulesOf s) on c (fun _ => 1) b q)
    (hv' : ∃ p < n', ∃ q < n', p ≠ q ∧ (∃ a, Wins (rulesOf s) on' c (fun _ => 1) a p) ∧ ∃ b, Wins (rulesOf s) on' c (fun _ => 1) b q)
    {l l' : List Cell} (h : predict R (some xs) none s = (.ok l, t)) (h' : predict R (some xs') none s = (.ok l', t')) :
    Same i j l l' := by
  obtain ⟨p, hp1, q, hq1, hpq, ⟨a1, ha1⟩, b1, hb1⟩ := hv
  obtain ⟨p', hp1', q', hq1', hpq', ⟨a2, ha2⟩, b2, hb2⟩ := hv'
  obtain ⟨a, ha, hva⟩ := C24_predict_stacked_partial hk hkind hu hst (fun e => by cases e) hc hd hs hnan hp1 hq1 hpq ha1 hb1
  obtain ⟨b, hb, hvb⟩ := C24_predict_stacked_partial hk hkind hu hst (fun e => by cases e) hc' hd hs hnan hp1' hq1' hpq' ha2 hb2
  rw [h] at ha
  rw [h'] at hb
  cases ha
  cases hb
  have hne : rulesOf s ≠ [] := by
    intro e
    have := ha1.1
    simp [e, votes] at this
  obtain ⟨r, hr⟩ := List.exists_mem_of_ne_nil _ hne
  obtain ⟨hi, hj, -⟩ := on_same hp (hc.act r hr) (hc'.act r hr)
  exact same_map _ (isVote_same hi hj (fun r hr => (on_same hp (hc.act r hr) (hc'.act r hr)).2.2) hva hvb)

/-! ## Examples -/

/-- Four points of one feature -/
def whole : Xs := .arr ⟨1, [[.fin 0], [.fin 1], [.fin 5], [.fin 20]]⟩

/-- Two of them, in another order -/
def batch : Xs := .arr ⟨1, [[.fin 5], [.fin 1]]⟩

/-- A DataFrame, and one with the same point and other columns -/
def table : Xs := .frame ⟨["a", "b"], [[.fin 1, .fin 7], [.fin 20, .fin 7]]⟩

/-- The second -/
def otherTable : Xs := .frame ⟨["c", "b", "a"], [[.fin 3, .fin 3, .fin 4], [.fin 0, .fin 9, .fin 1], [.fin 0, .fin 7, .fin 20]]⟩

theorem samePoint_batch : SamePoint whole 1 batch 1 ∧ SamePoint whole 2 batch 0 :=
  ⟨⟨rfl, [.fin 1], rfl, rfl⟩, ⟨rfl, [.fin 5], rfl, rfl⟩⟩

/-- The same point in two tables: columns in another order, a column more -/
example : SamePoint table 1 otherTable 2 ∧ ¬ SamePoint table 0 otherTable 1 := by
  refine ⟨⟨_, _, rfl, rfl, by decide +kernel⟩, ?_⟩
  rintro ⟨r, r', h, h', hn⟩
  cases h
  cases h'
  exact absurd (hn "b" (by decide) (by decide)) (by decide +kernel)

/-- Two rules -/
def two (a b : Label) : List Rule := [VoteProps.voter 0 [] a, VoteProps.voter 2 [] b]

/-- One rule, arrays and tables -/
example :
    let r := VoteProps.voter 2 [] (.num (.fin 7))
    r.predict (RuleProps.someEnv .regression) (some whole) = .ok [.num .nan, .num .nan, .num (.fin 7), .num .nan] ∧
      r.predict (RuleProps.someEnv .regression) (some batch) = .ok [.num (.fin 7), .num .nan] := by
  decide +kernel

/-- Means, plain and weighted, unstacked and stacked -/
example :
    let s := setWith .regression (two (.num (.fin 4)) (.num (.fin 7)))
    let w : WeightsArg := .series (VoteProps.someWeights 1 0 2)
    let R := { someRs with stackedFit := true }
    let t := { s with stacked := some [] }
    (predict someRs (some whole) none s).1 =
      .ok [.label (.num (.fin 4)), .label (.num (.fin 4)), .label (.num (.fin (11 / 2))), .label (.num .nan)] ∧
    (predict someRs (some batch) none s).1 = .ok [.label (.num (.fin (11 / 2))), .label (.num (.fin 4))] ∧
    (predict R (some whole) (some w) t).1 =
      .ok [.label (.num (.fin 4)), .label (.num (.fin 4)), .label (.num (.fin 6)), .label (.num .nan)] ∧
    (predict R (some batch) (some w) t).1 = .ok [.label (.num (.fin 6)), .label (.num (.fin 4))] := by
  decide +kernel

/-- Votes -/
example :
    let s := setWith .classification (two (.text "red") (.text "blue"))
    let w : WeightsArg := .series (VoteProps.someWeights 1 0 2)
    (predict someRs (some whole) (some w) s).1 =
      .ok [.label (.text "red"), .label (.text "red"), .label (.text "blue"), .label (.num .nan)] ∧
    (predict someRs (some batch) (some w) s).1 = .ok [.label (.text "blue"), .label (.text "red")] ∧
    (predict someRs (some whole) none s).1 =
      .ok [.label (.text "red"), .label (.text "red"), .label (.num .nan), .label (.num .nan)] ∧
    (predict someRs (some batch) none s).1 = .ok [.label (.num .nan), .label (.text "red")] := by
  decide +kernel

/-- Where a rule is active -/
def onIn (xs : Xs) (r : Rule) (k : Nat) : Bool := (((Rule.evaluate r.cond xs).toOption.getD [])[k]?).getD 0 == 1

/-- Three rules, of which at least one is active at three points and at two points -/
def three : List Rule :=
  [VoteProps.voter 0 [] (.text "red"), VoteProps.voter 1 [] (.text "blue"), VoteProps.voter 2 [] (.text "blue")]

theorem classifiers_whole : Classifiers (voteEnv someRs .classification) (some whole) three 4 (onIn whole) VoteProps.classOf := by
  refine ⟨by decide, ?_, ?_, ?_⟩
  · unfold three
    simp only [List.forall_mem_cons, List.not_mem_nil, false_imp_iff, implies_true, and_true]
    decide +kernel
  · unfold three
    simp only [List.forall_mem_cons, List.not_mem_nil, false_imp_iff, implies_true, and_true]
    decide +kernel
  · unfold three
    simp only [List.forall_mem_cons, List.not_mem_nil, false_imp_iff, implies_true, and_true]
    exact ⟨.inr ⟨_, rfl⟩, .inr ⟨_, rfl⟩, .inr ⟨_, rfl⟩⟩

/-- Two points of `whole`, of which the rules decide both -/
def pairOf : Xs := .arr ⟨1, [[.fin 5], [.fin 0]]⟩

theorem classifiers_pair : Classifiers (voteEnv someRs .classification) (some pairOf) three 2 (onIn pairOf) VoteProps.classOf := by
  refine ⟨by decide, ?_, ?_, ?_⟩
  · unfold three
    simp only [List.forall_mem_cons, List.not_mem_nil, false_imp_iff, implies_true, and_true]
    decide +kernel
  · unfold three
    simp only [List.forall_mem_cons, List.not_mem_nil, false_imp_iff, implies_true, and_true]
    decide +kernel
  · unfold three
    simp only [List.forall_mem_cons, List.not_mem_nil, false_imp_iff, implies_true, and_true]
    exact ⟨.inr ⟨_, rfl⟩, .inr ⟨_, rfl⟩, .inr ⟨_, rfl⟩⟩

theorem three_wins : Wins three (onIn whole) VoteProps.classOf (fun _ => 1) (.text "red") 0 ∧
    Wins three (onIn whole) VoteProps.classOf (fun _ => 1) (.text "blue") 2 ∧
    Wins three (onIn pairOf) VoteProps.classOf (fun _ => 1) (.text "blue") 0 ∧
    Wins three (onIn pairOf) VoteProps.classOf (fun _ => 1) (.text "red") 1 := by
  have key : ∀ (xs : Xs) (a : Label) (k : Nat), 0 < votes three (onIn xs) VoteProps.classOf (fun _ => 1) a k →
      (∀ b ∈ [Label.text "red", .text "blue"], b ≠ a → votes three (onIn xs) VoteProps.classOf (fun _ => 1) b k <
        votes three (onIn xs) VoteProps.classOf (fun _ => 1) a k) → Wins three (onIn xs) VoteProps.classOf (fun _ => 1) a k := by
    intro xs a k h0 h
    refine ⟨h0, fun b hb => ?_⟩
    by_cases hm : b ∈ [Label.text "red", .text "blue"]
    · exact h b hm hb
    · have : (three.filter fun r => onIn xs r k ∧ VoteProps.classOf r = b) = [] := by
        rw [List.filter_eq_nil_iff]
        intro r hr e
        have e := (of_decide_eq_true e).2
        apply hm
        rw [← e]
        unfold three at hr
        simp only [List.mem_cons, List.not_mem_nil, or_false] at hr
        rcases hr with rfl | rfl | rfl <;> decide +kernel
      have e : votes three (onIn xs) VoteProps.classOf (fun _ => 1) b k = 0 := by
        unfold votes
        rw [this]
        rfl
      rw [e]
      exact h0
  exact ⟨key _ _ _ (by decide +kernel) (by decide +kernel), key _ _ _ (by decide +kernel) (by decide +kernel),
    key _ _ _ (by decide +kernel) (by decide +kernel), key _ _ _ (by decide +kernel) (by decide +kernel)⟩

/-- The hypotheses of the theorems on votes -/
example :
    let s := setWith .classification three
    let w : WeightsArg := .series (VoteProps.someWeights 1 0 2)
    SamePoint whole 2 pairOf 0 ∧ rulesOf s = three ∧
      WeightsGiven (voteEnv someRs .classification) three (VoteProps.weightIn (voteEnv someRs .classification) (VoteProps.someWeights 1 0 2)) w ∧
      (∃ r ∈ three, VoteProps.weightIn (voteEnv someRs .classification) (VoteProps.someWeights 1 0 2) r ≠ 0 ∧ ∃ k < 4, onIn whole r k = true) ∧
      (predict someRs (some whole) (some w) s).1 =
        .ok [.label (.text "red"), .label (.text "red"), .label (.text "blue"), .label (.num .nan)] ∧
      (predict someRs (some pairOf) (some w) s).1 = .ok [.label (.text "blue"), .label (.text "red")] ∧
      (predict { someRs with stackedFit := true } (some whole) none { s with stacked := some [] }).1 =
        .ok [.label (.text "red"), .label (.num .nan), .label (.text "blue"), .label (.num .nan)] ∧
      (predict { someRs with stackedFit := true } (some pairOf) none { s with stacked := some [] }).1 =
        .ok [.label (.text "blue"), .label (.text "red")] ∧
      DifferentNames (voteEnv someRs .classification) three := by
  refine ⟨⟨rfl, [.fin 5], rfl, rfl⟩, rfl, ?_, ⟨_, List.mem_cons_self, by decide +kernel, 0, by decide, by decide +kernel⟩, by decide +kernel,
    by decide +kernel, by decide +kernel, by decide +kernel, by unfold DifferentNames; decide +kernel⟩
  unfold WeightsGiven WeightsAre three
  simp only [List.forall_mem_cons, List.not_mem_nil, false_imp_iff, implies_true, and_true]
  decide +kernel

/-! ## Violations -/

/-- **C66 is false of votes with negative weights:** the same point is undecided in the whole data set, where another rule
is active elsewhere, and has a class when it is alone. -/
theorem C66_negative_false :
    let s := setWith .classification [VoteProps.voter 0 [] (.text "red"), VoteProps.voter 2 [] (.text "blue")]
    let w : WeightsArg := .series (VoteProps.someWeights (-1) 0 1)
    let alone : Xs := .arr ⟨1, [[.fin 1]]⟩
    SamePoint whole 1 alone 0 ∧
      (predict someRs (some whole) (some w) s).1 = .ok [.label (.num .nan), .label (.num .nan), .label (.text "blue"), .label (.num .nan)] ∧
      (predict someRs (some alone) (some w) s).1 = .ok [.label (.text "red")] := by
  refine ⟨⟨rfl, [.fin 1], rfl, rfl⟩, by decide +kernel, by decide +kernel⟩

/-- **C66 is false of calls which raise:** a point where no rule is active has no prediction in the whole data set; alone, it
makes `predict` raise. -/
theorem C66_raises_false :
    let s := setWith .classification [VoteProps.voter 0 [] (.text "red")]
    let alone : Xs := .arr ⟨1, [[.fin 20]]⟩
    SamePoint whole 3 alone 0 ∧
      (predict someRs (some whole) none s).1 = .ok [.label (.text "red"), .label (.text "red"), .label (.text "red"), .label (.num .nan)] ∧
      (predict someRs (some alone) none s).1 = .error .valueError := by
  refine ⟨⟨rfl, [.fin 20], rfl, rfl⟩, by decide +kernel, by decide +kernel⟩

/-- **C66 is false of means which raise:** when the first rule predicts zero, a point where it is active makes `predict` raise for
the whole data set; a batch without this point has predictions. -/
theorem C66_zero_false :
    let s := setWith .regression [VoteProps.voter 2 [] (.num (.fin 0)), VoteProps.voter 0 [] (.num (.fin 4))]
    let alone : Xs := .arr ⟨1, [[.fin 1]]⟩
    SamePoint whole 1 alone 0 ∧ (predict someRs (some whole) none s).1 = .error .typeError ∧
      (predict someRs (some alone) none s).1 = .ok [.label (.num (.fin 4))] := by
  refine ⟨⟨rfl, [.fin 1], rfl, rfl⟩, by decide +kernel, by decide +kernel⟩

/-- **C66 is false of votes with stacked activations:** the class of the second point goes to the first one when no other point is
decided. -/
theorem C66_stacked_false :
    let R := { someRs with stackedFit := true }
    let s := { setWith .classification [VoteProps.voter 0 [] (.text "red")] with stacked := some [] }
    let pair : Xs := .arr ⟨1, [[.fin 20], [.fin 1]]⟩
    SamePoint whole 1 pair 1 ∧
      (predict R (some whole) none s).1 = .ok [.label (.text "red"), .label (.text "red"), .label (.text "red"), .label (.num .nan)] ∧
      (predict R (some pair) none s).1 = .ok [.label (.text "red"), .label (.num .nan)] := by
  refine ⟨⟨rfl, [.fin 1], rfl, rfl⟩, by decide +kernel, by decide +kernel⟩

end Verif.LocalProps
