import Verif.SetCoverSpec
import Verif.FitProps
import Verif.SetEvalProps
import Verif.NarrowProps
import Verif.RowOrderSetLemmas

/-!
# C80: the coverage of a ruleset and those of its rules
-/

namespace Verif.SetCoverProps

open Verif Spec RuleSet

/-- How many of the first `n` points `f` marks -/
def count (n : Nat) (f : Nat → Bool) : Nat := (List.range n).countP f

theorem count_or (n : Nat) (f g : Nat → Bool) : count n (fun i => f i || g i) + count n (fun i => f i && g i) = count n f + count n g := by
  unfold count
  induction List.range n with
  | nil => rfl
  | cons i l ih =>
    simp only [List.countP_cons]
    cases f i <;> cases g i <;> simp <;> omega

theorem count_mono {n : Nat} {f g : Nat → Bool} (h : ∀ i, f i = true → g i = true) : count n f ≤ count n g :=
  List.countP_mono_left fun i _ => h i

theorem count_zero {n : Nat} {f : Nat → Bool} : count n f = 0 ↔ ∀ i < n, f i = false := by
  unfold count
  rw [List.countP_eq_zero]
  simp

theorem nones_vec (n : Nat) (f : Nat → Bool) : Rule.nones (vec n f) = count n f := by
  unfold Rule.nones vec count
  rw [List.filter_map, List.length_map, ← List.countP_eq_length_filter]
  apply List.countP_congr
  intro i _
  cases h : f i <;> simp [h]

/-- Whether the rule marks the point -/
def marked (m : Member) (i : Nat) : Bool :=
  match m.rule.act with
  | some v => v[i]? = some 1
  | none => false

theorem marked_iff (m : Member) (i : Nat) : marked m i = true ↔ Marks m i := by
  unfold marked Marks
  cases m.rule.act <;> simp

theorem coveredBy_cons (m : Member) (l : List Member) (i : Nat) : coveredBy (m :: l) i = (marked m i || coveredBy l i) := rfl

theorem marked_vec {n : Nat} {m : Member} {on : Nat → Bool} (h : m.rule.act = some (vec n on)) {i : Nat} (hi : i < n) : marked m i = on i := by
  unfold marked
  rw [h]
  simp only [vec, List.getElem?_map, List.getElem?_range hi, Option.map_some]
  cases on i <;> simp

theorem marked_lt {n : Nat} {m : Member} {on : Nat → Bool} (h : m.rule.act = some (vec n on)) {i : Nat} (hi : marked m i = true) : i < n := by
  by_contra hn
  unfold marked at hi
  rw [h] at hi
  simp [vec, hn] at hi

theorem count_marked {n : Nat} {m : Member} {on : Nat → Bool} (h : m.rule.act = some (vec n on)) : count n on = count n (marked m) :=
  List.countP_congr fun i hi => by rw [marked_vec h (List.mem_range.1 hi)]

theorem covered_le (n : Nat) (rules : List Member) : count n (coveredBy rules) ≤ (rules.map fun m => count n (marked m)).sum := by
  induction rules with
  | nil => simp [count, coveredBy]
  | cons m l ih =>
    have h := count_or n (marked m) (coveredBy l)
    have e : count n (coveredBy (m :: l)) = count n fun i => marked m i || coveredBy l i := rfl
    rw [e, List.map_cons, List.sum_cons]
    omega

theorem covered_eq {n : Nat} {rules : List Member} (hp : ∀ m ∈ rules, HasPoints n m) :
    count n (coveredBy rules) = (rules.map fun m => count n (marked m)).sum ↔ rules.Pairwise Disjoint := by
  induction rules with
  | nil => simp [count, coveredBy]
  | cons m l ih =>
    have h := count_or n (marked m) (coveredBy l)
    have e : count n (coveredBy (m :: l)) = count n fun i => marked m i || coveredBy l i := rfl
    have hle := covered_le n l
    have ih := ih fun m hm => hp m (List.mem_cons_of_mem _ hm)
    obtain ⟨on, hon⟩ := hp m (by simp)
    rw [e, List.map_cons, List.sum_cons, List.pairwise_cons, ← ih]
    have hz : count n (fun i => marked m i && coveredBy l i) = 0 ↔ ∀ m' ∈ l, Disjoint m m' := by
      rw [count_zero]
      constructor
      · rintro h m' hm' i ⟨h1, h2⟩
        rw [← marked_iff] at h1 h2
        have := h i (marked_lt hon h1)
        rw [h1, Bool.true_and] at this
        have h3 : coveredBy l i = true := List.any_eq_true.2 ⟨m', hm', h2⟩
        rw [h3] at this
        cases this
      · intro h i _
        by_contra hc
        rw [Bool.not_eq_false, Bool.and_eq_true] at hc
        obtain ⟨m', hm', h2⟩ := List.any_eq_true.1 hc.2
        exact h m' hm' i ⟨(marked_iff _ _).1 hc.1, (marked_iff _ _).1 h2⟩
    rw [← hz]
    omega

theorem sum_div (l : List Member) (f : Member → Nat) (n : Rat) :
    (l.map fun m => (f m : Rat) / n).sum = (((l.map f).sum : Nat) : Rat) / n := by
  induction l with
  | nil => simp
  | cons m l ih => simp [ih, add_div]

/-- What the activations of a ruleset and of its rules say about the coverages -/
theorem bounds {n : Nat} {s : RuleSet} (hn : 0 < n) (ha : s.act = some (vec n (coveredBy s.rules))) (hp : ∀ m ∈ s.rules, HasPoints n m)
    (hc : ∀ m ∈ s.rules, Computed m) : ∃ p q, CoverageBounds s p q := by
  have hn' : (0 : Rat) < n := by exact_mod_cast hn
  refine ⟨(count n (coveredBy s.rules) : Rat) / n, fun m => (count n (marked m) : Rat) / n, ?_, ?_, ?_, ?_, ?_, ?_, ?_⟩
  · unfold rulesetCoverage
    rw [available_vec hn ha]
    simp only [vec_len, nones_vec]
  · intro m hm
    obtain ⟨on, hon⟩ := hp m hm
    unfold Rule.getCoverage
    rw [hon, hc m hm]
    simp only [vec_len, nones_vec, count_marked hon]
    rw [if_neg (by omega)]
  · intro m _
    positivity
  · intro m hm
    have : count n (marked m) ≤ count n (coveredBy s.rules) := count_mono fun i hi => List.any_eq_true.2 ⟨m, hm, hi⟩
    have : (count n (marked m) : Rat) ≤ count n (coveredBy s.rules) := by exact_mod_cast this
    gcongr
  · rw [div_le_one hn']
    have : count n (coveredBy s.rules) ≤ n := by
      unfold count
      exact List.countP_le_length.trans (by simp)
    exact_mod_cast this
  · rw [sum_div]
    have := covered_le n s.rules
    gcongr
  · rw [sum_div, div_left_inj' hn'.ne', Nat.cast_inj]
    exact covered_eq hp

/-- **C80 (building).** After any sequence of constructions, appends, additions, sorts and assignments of `rules`, with rules which all have an
activation of the same points and whose coverages nobody assigned. -/
theorem C80_built {R : RsEnv} {n : Nat} {b : Bool} {s : RuleSet} (hn : 0 < n) (h : Built R (HasPoints n) b s) (hne : s.rules ≠ [])
    (hc : ∀ m ∈ s.rules, Computed m) : ∃ p q, CoverageBounds s p q :=
  bounds hn ((RuleSet.Built.unionOk hn h).union hne) (RuleSet.Built.unionOk hn h).points hc

open _root_.Verif.RuleSetProps (someRs member twoRules threeRules threeRules_built unfitted someY fittedRules badMember)

/-- Three rules: the ruleset covers less than the sum. -/
example : Built someRs (HasPoints 3) true threeRules ∧ threeRules.rules.all (fun m => m.rule.actCoverage.isNone) = true ∧
    threeRules.rulesetCoverage = .num (.fin 1) ∧
    threeRules.rules.map (fun m => m.rule.getCoverage.toOption) =
      [some (.num (.fin (1 / 3))), some (.num (.fin (1 / 3))), some (.num (.fin (2 / 3)))] :=
  ⟨threeRules_built, by decide +kernel, by decide +kernel, by decide +kernel⟩

/-- Two rules without a common point -/
example : twoRules.rulesetCoverage = .num (.fin (1 / 3 + 1 / 3)) ∧
    twoRules.rules.map (fun m => m.rule.getCoverage.toOption) = [some (.num (.fin (1 / 3))), some (.num (.fin (1 / 3)))] :=
  ⟨by decide +kernel, by decide +kernel⟩

theorem bits_vec {v : List Nat} (h : ∀ a ∈ v, a = 0 ∨ a = 1) : v = vec v.length fun i => decide (v[i]? = some 1) := by
  apply List.ext_getElem
  · simp [vec]
  · intro i h1 h2
    simp only [vec, List.getElem_map, List.getElem_range, List.getElem?_eq_getElem h1]
    rcases h _ (List.getElem_mem h1) with e | e <;> simp [e]

theorem flags_marks {xs : Xs} {m : Member} (h : m.rule.act = some ((pointsOf xs).map fun p => flag (Selects m.rule.cond xs p))) :
    HasPoints xs.length m ∧ ∀ i, Marks m i ↔ ∃ p, (pointsOf xs)[i]? = some p ∧ Selects m.rule.cond xs p := by
  constructor
  · have := bits_vec (v := (pointsOf xs).map fun p => flag (Selects m.rule.cond xs p)) (by
      intro a ha
      obtain ⟨p, -, rfl⟩ := List.mem_map.1 ha
      unfold flag
      split <;> simp)
    rw [List.length_map, pointsOf_length] at this
    exact ⟨_, h.trans (congrArg some this)⟩
  · intro i
    unfold Marks
    rw [h]
    simp only [Option.some.injEq, exists_eq_left', List.getElem?_map, Option.map_eq_some_iff]
    refine exists_congr fun p => and_congr_right fun _ => ?_
    unfold flag
    split <;> simp_all

theorem fit_flags {E : Env} {y : List Label} {xs : Xs} {force : Bool} {kw : Rule.Kw} {r r' : Rule} (hx : xs.length ≠ 0)
    (hc : TalksAbout r.cond xs) (h : Rule.fit E y (some xs) force kw r = (.ok (), r')) :
    r'.act = some ((pointsOf xs).map fun p => flag (Selects r'.cond xs p)) ∧ r'.actCoverage = none := by
  have hcond : r'.cond = r.cond := by
    have := Rule.leaves_fit E y (some xs) force kw r
    rwa [h] at this
  obtain ⟨v, hv, ha⟩ := RowOrder.fit_act hx h
  refine ⟨by rw [ha, hcond, evaluateActivation_ok hv hc], ?_⟩
  obtain ⟨r1, r2, r3, h1, h2, h3, rfl⟩ := Rule.fit_steps (show Rule.Runs r (some xs) from hx) h
  obtain ⟨v, hv, hd⟩ := Rule.calcActivation_ok h1 hx
  have e2 : r1.actCoverage = none := congrArg Rule.actCoverage hd
  have := Rule.fresh_attrLoop E (Rule.fresh_calcTrain E y kw) force (Rule.trainAttrs E.kind) r1 e2
  rw [h2] at this
  have := Rule.fresh_checkAllIfGood E r2 this
  rw [h3] at this
  exact this

/-- **C80 (fit).** After `fit` with features, for the rules which are left. The points which a rule marks are those in its hyper-rectangle. -/
theorem C80_fit {R : RsEnv} {y : List Label} {xs : Xs} {force : Bool} {kw : Rule.Kw} {s s' : RuleSet} {dropped : List Member}
    (hx : xs.length ≠ 0) (hc : ∀ m ∈ s.rules, TalksAbout m.rule.cond xs) (h : fit R y (some xs) force kw s = (.ok dropped, s'))
    (hne : s.rules ≠ []) (hne' : s'.rules ≠ []) :
    (∃ p q, CoverageBounds s' p q) ∧
      ∀ m ∈ s'.rules, ∀ i, Marks m i ↔ ∃ p, (pointsOf xs)[i]? = some p ∧ Selects m.rule.cond xs p := by
  have hf : RuleSetProps.Fits s (some xs) := ⟨fun x e => Option.some.inj e ▸ hx, fun e => by cases e⟩
  obtain ⟨l, hl, -, hr⟩ := RuleSetProps.C28_fit hf hne h
  have key : ∀ m ∈ s'.rules, m.rule.act = some ((pointsOf xs).map fun p => flag (Selects m.rule.cond xs p)) ∧ m.rule.actCoverage = none := by
    intro m hm
    rw [hr] at hm
    replace hm := (List.mem_filter.1 hm).1
    clear hr h hne hne' hf
    unfold EachDone at hl
    revert hc hl
    generalize s.rules = rules
    intro hc hl
    induction hl with
    | nil => cases hm
    | cons h1 _ ih =>
      rcases List.mem_cons.1 hm with rfl | hm
      · exact fit_flags hx (hc _ (by simp)) h1.2
      · exact ih hm fun m hm => hc m (List.mem_cons_of_mem _ hm)
  have hp : ∀ m ∈ s'.rules, HasPoints xs.length m := fun m hm => (flags_marks (key m hm).1).1
  refine ⟨bounds (Nat.pos_of_ne_zero hx) ((RuleSetProps.C28_fit_activation hf hne h hp).1 hne' (Or.inl (by simp))) hp fun m hm => (key m hm).2, ?_⟩
  intro m hm
  exact (flags_marks (key m hm).1).2

/-- One of the three rules is too rare and dropped. -/
example : (fit someRs someY (some RuleProps.someXs) false {} unfitted).1.toOption.isSome = true ∧
    (fit someRs someY (some RuleProps.someXs) false {} unfitted).2.rulesetCoverage = .num (.fin 1) ∧
    (fit someRs someY (some RuleProps.someXs) false {} unfitted).2.rules.map (fun m => m.rule.getCoverage.toOption) =
      [some (.num (.fin 1)), some (.num (.fin (1 / 2)))] :=
  ⟨by decide +kernel, by decide +kernel, by decide +kernel⟩

/-- **C80 is false after `eval` which drops a rule:** the ruleset covers nothing (see `C28_eval_zeros_false`), its rules do. -/
theorem C80_eval_false :
    let s := (RuleSet.init someRs (fittedRules.rules ++ [badMember 2 [0, 1, 1, 0]]) true (RuleSet.blank false)).2
    let p := eval someRs someY (some RuleProps.someXs) false none false { criterionMethod := some "mse" } s
    p.1.toOption.isSome = true ∧ p.2.rulesetCoverage = .num (.fin 0) ∧
      p.2.rules.map (fun m => m.rule.getCoverage.toOption) = [some (.num (.fin 1)), some (.num (.fin (1 / 2)))] ∧
      p.2.rules.all (fun m => m.rule.actCoverage.isNone) = true :=
  ⟨by decide +kernel, by decide +kernel, by decide +kernel, by decide +kernel⟩

/-- **C80 is false when a coverage was assigned:** the rule says what was assigned, the ruleset what the activations say. -/
theorem C80_assigned_false :
    let m : Member := ⟨.regression, { (member 0 [1, 0, 0]).rule with actCoverage := some (.num (.fin (9 / 10))) }⟩
    let p := RuleSet.make someRs [m] true true
    p.toOption.map (fun s => s.rulesetCoverage) = some (.num (.fin (1 / 3))) ∧
      m.rule.getCoverage.toOption = some (.num (.fin (9 / 10))) :=
  ⟨by decide +kernel, by decide +kernel⟩

theorem coverage_eq {n : Nat} {s : RuleSet} {p : Rat} {q : Member → Rat} (hn : 0 < n) (ha : s.act = some (vec n (coveredBy s.rules)))
    (h : CoverageBounds s p q) : p = (count n (coveredBy s.rules) : Rat) / n := by
  have := h.own
  unfold rulesetCoverage at this
  rw [available_vec hn ha] at this
  simp only [vec_len, nones_vec] at this
  cases this
  rfl

/-- **C80 (more rules).** A ruleset with more rules covers at least as much; and a ruleset whose rules are those of two others covers at most
as much as both of them together. -/
theorem C80_more {R : RsEnv} {n : Nat} {b b' : Bool} {s t : RuleSet} {p p' : Rat} {q q' : Member → Rat} (hn : 0 < n)
    (h : Built R (HasPoints n) b s) (h' : Built R (HasPoints n) b' t) (hne : s.rules ≠ []) (hst : ∀ m ∈ s.rules, m ∈ t.rules)
    (hp : CoverageBounds s p q) (hp' : CoverageBounds t p' q') :
    p ≤ p' ∧ ∀ (b'' : Bool) (u : RuleSet) (p'' : Rat) (q'' : Member → Rat), Built R (HasPoints n) b'' u → u.rules ≠ [] →
      (∀ m, m ∈ t.rules ↔ m ∈ s.rules ∨ m ∈ u.rules) → CoverageBounds u p'' q'' → p' ≤ p + p'' := by
  have hn' : (0 : Rat) < n := by exact_mod_cast hn
  have hne' : t.rules ≠ [] := by
    obtain ⟨m, hm⟩ := List.exists_mem_of_ne_nil _ hne
    exact List.ne_nil_of_mem (hst m hm)
  have e := coverage_eq hn ((RuleSet.Built.unionOk hn h).union hne) hp
  have e' := coverage_eq hn ((RuleSet.Built.unionOk hn h').union hne') hp'
  constructor
  · have : count n (coveredBy s.rules) ≤ count n (coveredBy t.rules) := count_mono fun i hi => by
      obtain ⟨m, hm, hi⟩ := List.any_eq_true.1 hi
      exact List.any_eq_true.2 ⟨m, hst m hm, hi⟩
    rw [e, e']
    gcongr
  · intro b'' u p'' q'' hu hune hmem hp''
    have e'' := coverage_eq hn ((RuleSet.Built.unionOk hn hu).union hune) hp''
    have h1 : count n (coveredBy t.rules) ≤ count n fun i => coveredBy s.rules i || coveredBy u.rules i := count_mono fun i hi => by
      obtain ⟨m, hm, hi⟩ := List.any_eq_true.1 hi
      rw [Bool.or_eq_true]
      exact ((hmem m).1 hm).imp (fun hm => List.any_eq_true.2 ⟨m, hm, hi⟩) fun hm => List.any_eq_true.2 ⟨m, hm, hi⟩
    have h2 := count_or n (coveredBy s.rules) (coveredBy u.rules)
    rw [e, e', e'', ← add_div]
    have : (count n (coveredBy t.rules) : Rat) ≤ count n (coveredBy s.rules) + count n (coveredBy u.rules) := by
      exact_mod_cast (by omega : count n (coveredBy t.rules) ≤ count n (coveredBy s.rules) + count n (coveredBy u.rules))
    gcongr

/-- The third rule adds a point; `threeRules` are the rules of `twoRules` and of a ruleset with the third one. -/
example : (∀ m ∈ twoRules.rules, m ∈ threeRules.rules) ∧ twoRules.rulesetCoverage = .num (.fin (2 / 3)) ∧
    threeRules.rulesetCoverage = .num (.fin 1) ∧ threeRules.rules = twoRules.rules ++ [member 2 [1, 1, 0]] :=
  ⟨fun m hm => List.mem_append_left [member 2 [1, 1, 0]] hm, by decide +kernel, by decide +kernel, rfl⟩

end Verif.SetCoverProps
