import Verif.StackedCritLemmas
import Verif.StackedEvalProps

/-!
# Properties of stacked eval: rulesets which do not keep stacked activations
-/

namespace Verif.RuleSetProps

open Verif Vote Spec RuleSet

theorem sameRule_of_noLog {l l' : List Member} (h : l'.map noLogM = l.map noLogM) : List.Forall₂ SameRule l l' := by
  induction l generalizing l' with
  | nil =>
    cases l' with
    | nil => exact .nil
    | cons _ _ => simp at h
  | cons m l ih =>
    cases l' with
    | nil => simp at h
    | cons m' l' =>
      rw [List.map_cons, List.map_cons, List.cons.injEq] at h
      refine .cons ⟨?_, ?_⟩ (ih h.2)
      · have := congrArg Member.kind h.1
        exact this
      · have := congrArg Member.rule h.1
        have : noLog m'.rule = noLog m.rule := this
        unfold noLog at this
        cases h1 : m.rule
        cases h2 : m'.rule
        rw [h1, h2] at this
        simp only [Rule.mk.injEq] at this ⊢
        simp only [this, and_self]

/-- **C44 (ruleset without stacked activations).** Let a ruleset not keep stacked activations, and be evaluated either with features or
with the right activation.  If no bad rule is kept by the stacked eval, then after both evals the rulesets have the same rules, down to
their activations, the same criterion, and the same size of the test set; neither has stacked activations.  If the new activations are
kept, or the activation was right before, their activations are the same too.
Missing: rulesets which keep stacked activations, for which `C44_same_partial` compares rules only (`C44_activation_false`); what
`CanEval` leaves out; both evals are assumed to go through. -/
theorem C44_ruleset_partial {R : RsEnv} {k : Kind} {y : List Label} {xs : Option Xs} {keep : Bool} {w : Option WeightsArg} {kw : Rule.Kw}
    {s s1 s2 : RuleSet} {d1 d2 : List Member} (hc : CanEval R k y xs s) (hd : DifferentRules R.hasher s.rules) (hne : s.rules ≠ [])
    (h1 : eval (withStackedFit R false) y xs keep w false kw s = (.ok d1, s1))
    (h2 : evalStacked (withStackedFit R true) y xs keep w kw s = (.ok d2, s2)) (hg : ∀ m ∈ s2.rules, m.rule.good = true)
    (hraw : RawSees R.storedRaw) (hstack : s.stack = false) (hst : s.stacked = none) (hx : xs ≠ none ∨ ActivationKnown s) :
    List.Forall₂ SameRule s1.rules s2.rules ∧ s2.criterion = s1.criterion ∧ s2.testSize = s1.testSize ∧ s1.stacked = none ∧
      s2.stacked = none ∧
      (xs ≠ none ∧ (keep = true ∨ ∃ m ∈ s.rules, m.rule.fitted = false) ∨ ActivationKnown s → s2.act = s1.act) := by
  obtain ⟨sa, sb, sa', sb', hn, g1, g2, hca, hcb, rfl, rfl⟩ := both_near hc hd hne rfl h1 h2 hg hstack hst
  have hfa := calcCriterion_frame (R := withStackedFit R false) y (if (keep || !(s.rules.all fun m => m.rule.fitted)) then none else xs) w kw sa
  have hfb := calcCriterion_frame (R := withStackedFit R true) y (if (keep || !(s.rules.all fun m => m.rule.fitted)) then none else xs) w kw sb
  rw [hca] at hfa
  rw [hcb] at hfb
  rw [calcCriterion_off g2] at hcb
  have hnear := calcCriterion_near (R := withStackedFit R false) (b := xs ≠ none ∧ (keep || !(s.rules.all fun m => m.rule.fitted)) = true ∨ ActivationKnown s)
    hraw rfl y (xs := if (keep || !(s.rules.all fun m => m.rule.fitted)) then none else xs) w kw (by
      intro e
      split at e
      · rename_i hk
        rcases hx with h | h
        · exact .inl ⟨h, hk⟩
        · exact .inr h
      · rcases hx with h | h
        · exact absurd e h
        · exact .inr h) sa sb hn
  rw [hca, hcb] at hnear
  obtain ⟨-, hnear⟩ := hnear
  refine ⟨sameRule_of_noLog hnear.rules, hnear.criterion, rfl, hfa.2.1.trans g1, hfb.2.1.trans g2, ?_⟩
  intro h
  refine hnear.act ?_
  rcases h with ⟨e1, e2⟩ | e
  · refine .inl ⟨e1, ?_⟩
    rcases e2 with e2 | ⟨m, hm, e2⟩
    · rw [e2]
      rfl
    · rw [Bool.or_eq_true]
      right
      rw [Bool.not_eq_true', List.all_eq_false]
      exact ⟨m, hm, by simp [e2]⟩
  · exact .inr e

theorem evaluateStacked_ne {R : RsEnv} {rules : List Member} {c : Option (Columns Nat)} (hact : ∀ m ∈ rules, m.rule.act ≠ none)
    (h : evaluateStacked R none rules = .ok c) : c ≠ none := by
  unfold evaluateStacked at h
  split at h
  · cases h
    simp
  · cases hm : rules.mapM fun m : Member => m.rule.act with
    | none =>
      exfalso
      clear h
      induction rules with
      | nil => simp at hm
      | cons m rules ih =>
        rw [List.mapM_cons] at hm
        cases ha : m.rule.act with
        | none => exact hact m (by simp) ha
        | some v =>
          cases hr : rules.mapM fun m : Member => m.rule.act with
          | some l =>
            rw [ha, hr] at hm
            cases hm
          | none =>
            rename_i hl
            by_cases e : rules.length = 0
            · rw [List.length_eq_zero_iff.1 e] at hr
              simp at hr
            · exact ih (fun m hm => hact m (by simp [hm])) e hr
    | some acts =>
      simp only [activations, hm, bind, Except.bind] at h
      cases hf : frameOf (namedColumns R rules acts) with
      | error e =>
        rw [hf] at h
        cases h
      | ok d =>
        rw [hf] at h
        cases h
        simp

/-- **C44 (stacked activations).** After a stacked eval which goes through, the stacked activations of a ruleset which keeps them are
those of its rules, if they were before, or rules have been dropped, or the new activations are kept, or there were none and the rules
have been evaluated on their own activations.  (Otherwise the rules have been evaluated on features which are not kept: the stacked
activations stay as they were.) -/
theorem C44_stacked {R : RsEnv} {y : List Label} {xs : Option Xs} {keep : Bool} {w : Option WeightsArg} {kw : Rule.Kw} {s s' : RuleSet}
    {d : List Member} {n : Nat} (hon : R.stackedFit = true) (hx : ∀ x, xs = some x → x.length ≠ 0) (hne : s.rules ≠ [])
    (h : evalStacked R y xs keep w kw s = (.ok d, s')) (hstack : s.stack = true) (hpts : ∀ m ∈ s'.rules, HasPoints n m)
    (hd : DifferentTexts R s'.rules)
    (ha : (xs ≠ none ∧ (keep = true ∨ ∃ m ∈ s.rules, m.rule.fitted = false)) ∨ ∀ m ∈ s.rules, m.rule.act ≠ none)
    (hc : s.stacked = some (columnsOf R s.rules) ∨ d ≠ [] ∨ (xs ≠ none ∧ (keep = true ∨ ∃ m ∈ s.rules, m.rule.fitted = false)) ∨
      (xs = none ∧ s.stacked = none)) :
    s'.stacked = some (columnsOf R s'.rules) := by
  obtain ⟨k, p, s1, c, vals, ns, l2, s2, s3, keep', hkeep, -, hp, -, -, -, hra, haf, hcr, rfl, rfl⟩ := evalStacked_ok hx hne h
  have hown : l2.map (fun m => Rule.own m.rule) = s1.rules.map fun m => Rule.own m.rule := by
    have := receiveAll_own (R := R) (mark := fun r => { r with evaluated := true }) (fun _ => rfl) vals 0 s1.rules
    rwa [hra] at this
  have hk : (keep = true ∨ ∃ m ∈ s.rules, m.rule.fitted = false) → keep' = true := by
    rw [hkeep]
    rintro (e | ⟨m, hm, e⟩)
    · rw [e]
      rfl
    · rw [Bool.or_eq_true]
      right
      rw [Bool.not_eq_true', List.all_eq_false]
      exact ⟨m, hm, by simp [e]⟩
  have hs1 : ∀ m ∈ s1.rules, m.rule.act ≠ none := by
    have other : s1.rules = s.rules → (∀ m ∈ s.rules, m.rule.act ≠ none) → ∀ m ∈ s1.rules, m.rule.act ≠ none := by
      intro e h
      rw [e]
      exact h
    rcases prepareEval_ok hx hp with ⟨x, la, a, c', rfl, -, hla, -, -, rfl, -⟩ | ⟨x, c', -, rfl, -, rfl, -⟩ | ⟨rfl, -, c', a, -, -, rfl, -⟩ | ⟨rfl, -, rfl, -⟩
    · intro ma hma
      obtain ⟨j, hj⟩ := List.mem_iff_getElem?.1 hma
      obtain ⟨m, hjm⟩ := get_of_length (List.Forall₂.length_eq hla) hj
      obtain ⟨ma', e1, e2, e3⟩ := forall2_get hla hjm
      have hj : la[j]? = some ma := hj
      rw [hj] at e1
      cases e1
      obtain ⟨v, -, hv⟩ := Rule.calcActivation_ok e3 (hx x rfl)
      have := congrArg Rule.act hv
      have this : ma.rule.act = some v := this
      rw [this]
      simp
    · refine other rfl ?_
      rcases ha with ⟨-, h⟩ | h
      · cases hk h
      · exact h
    · refine other rfl ?_
      rcases ha with ⟨h, -⟩ | h
      · exact absurd rfl h
      · exact h
    · refine other rfl ?_
      rcases ha with ⟨h, -⟩ | h
      · exact absurd rfl h
      · exact h
  have hl2 : ∀ m ∈ l2, m.rule.act ≠ none := by
    intro m hm
    have : Rule.own m.rule ∈ s1.rules.map fun m => Rule.own m.rule := hown ▸ List.mem_map_of_mem hm
    obtain ⟨m1, hm1, e⟩ := List.mem_map.1 this
    have e : m1.rule.act = m.rule.act := congrArg Prod.snd e
    rw [← e]
    exact hs1 m1 hm1
  -- before the criterion
  have key : (s2.stacked ≠ none) ∧ ((∀ m ∈ s2.rules, HasPoints n m) → DifferentTexts R s2.rules → s2.stacked = some (columnsOf R s2.rules)) := by
    have stored : ∀ {la : List Member} {c : Option (Columns Nat)}, l2.map (fun m => Rule.own m.rule) = la.map (fun m => Rule.own m.rule) →
        evaluateStacked R none la = .ok c → (∀ m ∈ l2, HasPoints n m) → DifferentTexts R l2 → c = some (columnsOf R l2) := by
      intro la c e he hp hd
      have hmem : ∀ m ∈ la, HasPoints n m := by
        intro m hm
        obtain ⟨j, hj⟩ := List.mem_iff_getElem?.1 hm
        have := congrArg (fun l => l[j]?) e
        simp only [List.getElem?_map, hj, Option.map_some, Option.map_eq_some_iff] at this
        obtain ⟨m2, hj2, e2⟩ := this
        obtain ⟨on, ho⟩ := hp m2 (List.mem_of_getElem? hj2)
        refine ⟨on, ?_⟩
        have := congrArg Prod.snd e2
        exact Eq.trans this.symm ho
      rw [columnsOf_own e]
      refine evaluateStacked_stored hmem ?_ he
      have := congrArg (List.map fun p : Cond × Option (List Nat) => R.condStr p.1) e
      rw [List.map_map, List.map_map] at this
      unfold DifferentTexts at hd ⊢
      exact this ▸ hd
    unfold afterEvalStacked at haf
    split at haf
    · obtain ⟨_, t1, h1, haf⟩ := Py.bind_eq_ok haf
      obtain ⟨d1, d2, d3, -⟩ := dropRules_ok h1
      have hmem : ∀ m ∈ t1.rules, m.rule.act ≠ none := by
        intro m hm
        rw [keepRules_ok d1] at hm
        obtain ⟨q, hq, rfl⟩ := List.mem_map.1 hm
        exact hl2 q.1 (List.mem_of_getElem? (List.mk_mem_zipIdx_iff_getElem?.1 (List.mem_filter.1 hq).1))
      have hs1 : s1.stack = true := by
        rcases prepareEval_ok hx hp with ⟨x, la, a, c', -, -, -, -, -, rfl, -⟩ | ⟨x, c', -, -, -, rfl, -⟩ | ⟨-, -, c', a, -, -, rfl, -⟩ | ⟨-, -, rfl, -⟩
        all_goals exact hstack
      have d3 : t1.stack = true := d3.trans hs1
      obtain ⟨_, t2, h2, haf⟩ := Py.bind_eq_ok haf
      obtain ⟨f1, -, -⟩ := selfIf_ok h2
      have hst : t2.stack = true := by rw [f1]; exact d3
      have hsd : t2.stacked = none := by rw [f1]; exact d2
      rcases whenSet_ok haf with ⟨e, -⟩ | ⟨-, haf⟩
      · rw [hst, hsd] at e
        cases e
      · obtain ⟨c2, hc2, rfl⟩ := recomputeStacked_ok haf
        exact ⟨evaluateStacked_ne (by rw [f1]; exact hmem) hc2, fun hp hd => evaluateStacked_stored hp hd hc2⟩
    · rename_i hpos
      have hnil : dropList l2 ns = [] := List.length_eq_zero_iff.1 (by omega)
      simp only [Py.pure_run] at haf
      cases haf
      show (if p.2 then none else s1.stacked) ≠ none ∧
        ((∀ m ∈ l2, HasPoints n m) → DifferentTexts R l2 → (if p.2 then none else s1.stacked) = some (columnsOf R l2))
      have right : s1 = s → s.stacked = some (columnsOf R s.rules) → s1.stacked ≠ none ∧
          ((∀ m ∈ l2, HasPoints n m) → DifferentTexts R l2 → s1.stacked = some (columnsOf R l2)) := by
        rintro rfl e
        exact ⟨by rw [e]; simp, fun _ _ => by rw [e, columnsOf_own hown]⟩
      rcases prepareEval_ok hx hp with ⟨x, la, a, c', rfl, rfl, -, -, he, rfl, rfl⟩ | ⟨x, c', rfl, rfl, he, e, rfl⟩ | ⟨rfl, -, c', a, he, -, rfl, rfl⟩ | ⟨rfl, hs, e, rfl⟩
      · simp only [hstack]
        exact ⟨evaluateStacked_ne hs1 he, stored hown he⟩
      · refine right e ?_
        rcases hc with h | h | ⟨-, h⟩ | ⟨h, -⟩
        · exact h
        · rw [hnil] at h
          exact absurd rfl h
        · cases hk h
        · cases h
      · simp only [hstack]
        exact ⟨evaluateStacked_ne hs1 he, stored hown he⟩
      · refine right e ?_
        rcases hc with h | h | ⟨h, -⟩ | ⟨-, h⟩
        · exact h
        · rw [hnil] at h
          exact absurd rfl h
        · exact absurd rfl h
        · exact absurd h hs
  obtain ⟨e1, e2, -⟩ := calcCriterion_stacked hon key.1 hcr
  show s3.stacked = some (columnsOf R s3.rules)
  have hpts : ∀ m ∈ s3.rules, HasPoints n m := hpts
  have hd : DifferentTexts R s3.rules := hd
  rw [e1] at hpts hd ⊢
  rw [e2]
  exact key.2 hpts hd

/-- The third rule is dropped, the features are kept. -/
example :
    let y := numbersOf [1, 2, 3, 6, 4]
    let R := withStackedFit someRs true
    let p := evalStacked R y (some fiveXs) true none {} (threeOf .regression)
    R.stackedFit = true ∧ fiveXs.length ≠ 0 ∧ (threeOf .regression).rules ≠ [] ∧ p.1.toOption.map List.length = some 1 ∧
      (threeOf .regression).stack = true ∧ (∀ m ∈ p.2.rules, HasPoints 5 m) ∧ DifferentTexts R p.2.rules ∧
      p.2.stacked = some (columnsOf R p.2.rules) := by
  refine ⟨rfl, by decide, (fun e => by cases e), by decide +kernel, rfl, ?_, by unfold DifferentTexts; decide +kernel, by decide +kernel⟩
  have e : (evalStacked (withStackedFit someRs true) (numbersOf [1, 2, 3, 6, 4]) (some fiveXs) true none {} (threeOf .regression)).2.rules.map
      (fun m => m.rule.act) = [some [1, 1, 1, 1, 1], some [0, 1, 1, 1, 1]] := by decide +kernel
  intro m hm
  have := List.mem_map_of_mem (f := fun m : Member => m.rule.act) hm
  rw [e] at this
  simp only [List.mem_cons, List.not_mem_nil, or_false] at this
  rcases this with h | h
  · exact ⟨fun _ => true, h⟩
  · exact ⟨fun i => decide (0 < i), h⟩

/-- **C43 (stacked activations).** A stacked fit which goes through leaves no stacked activations in a ruleset which had none and does not
keep them. -/
theorem C43_removed {R : RsEnv} {y : List Label} {xs : Option Xs} {kw : Rule.Kw} {s s' : RuleSet} {dropped : List Member}
    (h : fitStacked R y xs kw s = (.ok dropped, s')) (hstack : s.stack = false) (hst : s.stacked = none) :
    s'.stack = false ∧ s'.stacked = none := by
  by_cases hrun : (∀ x, xs = some x → x.length ≠ 0) ∧ (xs = none → ∃ m ∈ s.rules, m.rule.fitted = false) ∧ s.rules ≠ []
  · obtain ⟨hx, hf, hne⟩ := hrun
    obtain ⟨k, clean, s1, c, vals, ns, l2, s2, -, hp, -, -, -, -, ha, rfl, -⟩ := fitStacked_ok hx hf hne h
    have h1 : s1.stack = false ∧ (if clean then none else s1.stacked) = none := by
      rcases prepareFit_ok hx hp with ⟨x, la, a, c, -, -, -, -, rfl, rfl⟩ | ⟨-, -, c, -, rfl, rfl⟩ | ⟨-, e, -, -⟩
      · exact ⟨hstack, by rw [hstack]; rfl⟩
      · exact ⟨hstack, by rw [hstack]; rfl⟩
      · exact absurd hst e
    unfold afterFitStacked at ha
    split at ha
    · obtain ⟨_, s3, h3, ha⟩ := Py.bind_eq_ok ha
      obtain ⟨-, d2, d3, -⟩ := dropRules_ok h3
      have d3 : s3.stack = false := d3.trans h1.1
      obtain ⟨_, s4, h4, ha⟩ := Py.bind_eq_ok ha
      obtain ⟨a, -, rfl⟩ := recomputeSelf_ok h4
      rcases whenSet_ok ha with ⟨-, rfl⟩ | ⟨e, -⟩
      · exact ⟨d3, d2⟩
      · exact absurd (d3.symm.trans e) (by simp)
    · simp only [Py.pure_run] at ha
      cases ha
      exact h1
  · have : s' = s := by
      unfold fitStacked at h
      obtain ⟨k, s0, h0, h'⟩ := Py.bind_eq_ok h
      have : s0 = s := by
        unfold needType at h0
        rw [Py.bind_ok (Py.get_run s)] at h0
        cases hk : s.ruleType with
        | none => simp [hk] at h0
        | some k =>
          simp only [hk, Py.pure_run] at h0
          cases h0
          rfl
      subst this
      split at h'
      · simp at h'
      rw [Py.bind_ok (Py.get_run _)] at h'
      split at h'
      · cases h'; rfl
      split at h'
      · cases h'; rfl
      split at h'
      · cases h'; rfl
      rename_i n1 n2 n3
      exfalso
      apply hrun
      refine ⟨?_, ?_, ?_⟩
      · rintro x rfl e
        apply n1
        simp [e]
      · rintro rfl
        by_contra hn
        apply n3
        simp only [Option.isNone_none, Bool.and_true, List.all_eq_true]
        intro m hm
        by_contra hf
        exact hn ⟨m, hm, by simpa using hf⟩
      · intro e
        apply n2
        rw [e]
        rfl
    rw [this]
    exact ⟨hstack, hst⟩

/-- Rules dropped and kept -/
example :
    let p := fitStacked someRs (numbersOf [1, 2, 3, 6, 4]) (some fiveXs) {} (started (threeOf .regression).rules false)
    (started (threeOf .regression).rules false).stack = false ∧ (started (threeOf .regression).rules false).stacked = none ∧
      (p.1.toOption.map List.length).isSome ∧ p.2.rules.length = 2 ∧ p.2.stacked = none :=
  ⟨rfl, rfl, by decide +kernel, by decide +kernel, by decide +kernel⟩

/-- **C43 is false after a fit which raises:** the stacked activations stay, and if it is their computation which raises, so does the
wish to keep them. -/
theorem C43_left_false :
    let R := kindRs .classification
    let s := started [memberOf .classification 0 [1, 1, 1], memberOf .classification 5 [0, 0, 1]] false
    let t := RuleSet.init someRs [memberOf .regression 0 [1, 1, 1], memberOf .regression 1 [0, 1]] false (RuleSet.blank false)
    let p := fitStacked R (numbersOf [1, 2, 2, 1, 2]) (some fiveXs) {} s
    let q := fitStacked someRs (numbersOf [1, 2, 2]) none {} t.2
    s.stack = false ∧ s.stacked = none ∧ p.1.map List.length = .error .indexError ∧ p.2.stacked.isSome = true ∧ p.2.stack = false ∧
      t.1 = .ok () ∧ t.2.rules.length = 2 ∧ t.2.stack = false ∧ q.1.map List.length = .error .valueError ∧ q.2.stack = true :=
  ⟨by decide +kernel, by decide +kernel, by decide +kernel, by decide +kernel, by decide +kernel, by decide +kernel, by decide +kernel,
    by decide +kernel, by decide +kernel, by decide +kernel⟩

/-! ## Examples -/

/-- The rules of `threeOf` in a ruleset which does not keep stacked activations -/
def plainOf (k : Kind) : RuleSet := started [memberOf k 0 [1, 1, 1], memberOf k 1 [0, 0, 1], memberOf k 3 [0, 0, 1]] false

/-- Numbers: the third rule is dropped by both evals, and the criterion of the ruleset is computed. -/
example :
    let y := numbersOf [1, 2, 3, 6, 4]
    let p1 := eval (withStackedFit someRs false) y (some fiveXs) true none false {} (plainOf .regression)
    let p2 := evalStacked (withStackedFit someRs true) y (some fiveXs) true none {} (plainOf .regression)
    CanEval someRs .regression y (some fiveXs) (plainOf .regression) ∧ DifferentRules someRs.hasher (plainOf .regression).rules ∧
      (plainOf .regression).rules ≠ [] ∧ RawSees someRs.storedRaw ∧ (plainOf .regression).stack = false ∧
      (plainOf .regression).stacked = none ∧
      p1.1.toOption.map List.length = some 1 ∧ p2.1.toOption.map List.length = some 1 ∧
      p2.2.rules.map (fun m => m.rule.good) = [true, true] ∧
      p2.2.rules.map (fun m => m.rule.act) = [some [1, 2, 2, 2, 2], some [0, 1, 1, 1, 1]] ∧
      p2.2.act = some [1, 1, 1, 1, 1] ∧ p2.2.criterion = .num (.fin (195 / 74)) := by
  refine ⟨⟨rfl, ?_, ?_, ?_, by unfold DifferentTexts; decide +kernel, (fun e => by cases e), fun _ _ _ _ _ => rfl⟩, differentOf .regression,
    (fun e => by cases e), fun _ _ => rfl, rfl, rfl, by decide +kernel, by decide +kernel, by decide +kernel, by decide +kernel,
    by decide +kernel, by decide +kernel⟩
  · have e : (plainOf .regression).rules = [memberOf .regression 0 [1, 1, 1], memberOf .regression 1 [0, 0, 1], memberOf .regression 3 [0, 0, 1]] := rfl
    rw [e]
    simp only [List.forall_mem_cons, List.not_mem_nil, false_imp_iff, implies_true, and_true]
    exact ⟨rfl, rfl, rfl⟩
  · intro x e
    cases e
    exact (show fiveXs.length ≠ 0 by decide)
  · have e : (plainOf .regression).rules = [memberOf .regression 0 [1, 1, 1], memberOf .regression 1 [0, 0, 1], memberOf .regression 3 [0, 0, 1]] := rfl
    rw [e]
    simp only [List.forall_mem_cons, List.not_mem_nil, false_imp_iff, implies_true, and_true]
    refine ⟨⟨[true, true, true, true, true], ?_, rfl, ?_⟩, ⟨[false, true, true, true, true], ?_, rfl, ?_⟩,
      ⟨[false, false, false, true, true], ?_, rfl, ?_⟩⟩
    all_goals first
      | exact (show Rule.evaluateActivation _ _ _ = _ by decide +kernel)
      | exact (show Rule.length _ ≠ 0 by decide +kernel)

/-- Without features, with the right activation -/
example :
    let s := fittedOf (started [memberOf .classification 0 [1, 1, 1, 1, 0], memberOf .classification 1 [0, 1, 1, 1, 1]] false)
    let y := numbersOf [1, 2, 1, 1, 1]
    let R := kindRs .classification
    let p1 := eval (withStackedFit R false) y none false none false {} s
    let p2 := evalStacked (withStackedFit R true) y none false none {} s
    ActivationKnown s ∧ RawSees R.storedRaw ∧ s.stack = false ∧ s.stacked = none ∧ p1.1.toOption = some [] ∧ p2.1.toOption = some [] ∧
      p2.2.act = some [1, 1, 1, 1, 1] ∧ p2.2.criterion = .num (.fin (4 / 5)) := by
  refine ⟨⟨5, by decide, ?_, ?_⟩, fun _ _ => rfl, rfl, rfl, by decide +kernel, by decide +kernel, by decide +kernel, by decide +kernel⟩
  · intro m hm
    have e : m ∈ [memberOf .classification 0 [1, 1, 1, 1, 0], memberOf .classification 1 [0, 1, 1, 1, 1]].map
      (fun m => { m with rule := { m.rule with fitted := true } }) := hm
    simp only [List.map_cons, List.map_nil, List.mem_cons, List.not_mem_nil, or_false] at e
    rcases e with rfl | rfl
    · exact ⟨fun i => decide (i < 4), rfl⟩
    · exact ⟨fun i => decide (0 < i), rfl⟩
  · decide +kernel

/-- **C44 is false for activations which are not those of the rules:** without features the stacked eval computes the activation of the
ruleset again, the plain one does not. -/
theorem C44_stale_false :
    let s := { fittedOf (started [memberOf .regression 0 [1, 1, 1, 1, 0], memberOf .regression 1 [0, 1, 1, 1, 0]] false) with
      act := some [1, 0, 0, 0, 1] }
    let p1 := eval (withStackedFit someRs false) (numbersOf [1, 2, 3, 6, 4]) none false none false {} s
    let p2 := evalStacked (withStackedFit someRs true) (numbersOf [1, 2, 3, 6, 4]) none false none {} s
    p1.1.toOption = some [] ∧ p2.1.toOption = some [] ∧ p1.2.act = some [1, 0, 0, 0, 1] ∧ p2.2.act = some [1, 1, 1, 1, 0] :=
  ⟨by decide +kernel, by decide +kernel, by decide +kernel, by decide +kernel⟩

end Verif.RuleSetProps
